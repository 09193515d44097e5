import Verif.Spec.Devices
import Verif.Lemmas.TFunctions
import Verif.Props.Assign
import Verif.Props.GpuT

/-! # Lemmas on tensors of the host and of the GPU -/

namespace Cnine

variable {α : Type}

namespace Dev

open View

/-! ### Merging the axes of a row-major tensor with those of another -/

/-- Axes in ascending order whose first strides are those of a row-major tensor. -/
def Reg : Nat → List (Nat × Nat × Nat) → Prop
  | _, [] => True
  | p, (xs, _, d) :: l => xs = p ∧ 2 ≤ d ∧ Reg (p * d) l

theorem scrunch_reg : ∀ (l : List (Nat × Nat × Nat)) (p y d : Nat), 2 ≤ d → Reg (p * d) l →
    Reg p (coScrunchLoop (p, y, d) l) ∧ ((∀ a ∈ coScrunchLoop (p, y, d) l, a.2.1 = a.1) ↔ ∀ a ∈ (p, y, d) :: l, a.2.1 = a.1) ∧
    ∃ parts : List (List Nat), (∀ q ∈ parts, q ≠ []) ∧ parts.flatten = d :: l.map (·.2.2) ∧ parts.map List.prod = (coScrunchLoop (p, y, d) l).map (·.2.2)
  | [], p, y, d, hd, _ => ⟨⟨rfl, hd, trivial⟩, Iff.rfl, [[d]], by simp, by simp, by simp [coScrunchLoop]⟩
  | (xs, y', d') :: l, p, y, d, hd, h => by
    obtain ⟨rfl, hd', h⟩ := h
    rw [coScrunchLoop]
    by_cases e : y' = y * d
    · rw [if_pos ⟨rfl, e⟩]
      have h2 : 2 ≤ d * d' := Nat.le_trans hd (Nat.le_mul_of_pos_right _ (by omega))
      obtain ⟨g1, g2, parts, g3, g4, g5⟩ := scrunch_reg l p y (d * d') h2 (by rw [← Nat.mul_assoc]; exact h)
      refine ⟨g1, g2.trans ?_, ?_⟩
      · simp only [List.forall_mem_cons]
        constructor
        · rintro ⟨a, b⟩; exact ⟨a, by rw [e, a], b⟩
        · rintro ⟨a, _, b⟩; exact ⟨a, b⟩
      · match parts, g3, g4, g5 with
        | [], _, g4, _ => simp at g4
        | [] :: _, g3, _, _ => exact absurd rfl (g3 [] (by simp))
        | (a :: q) :: ps, g3, g4, g5 =>
          simp only [List.flatten_cons, List.cons_append, List.cons.injEq] at g4
          refine ⟨(d :: d' :: q) :: ps, ?_, ?_, ?_⟩
          · intro r hr
            rcases List.mem_cons.1 hr with rfl | hr
            · simp
            · exact g3 r (List.mem_cons_of_mem _ hr)
          · simp [g4.2]
          · rw [← g5, g4.1]; simp [Nat.mul_assoc]
    · rw [if_neg fun h => e h.2]
      obtain ⟨g1, g2, parts, g3, g4, g5⟩ := scrunch_reg l (p * d) y' d' hd' h
      refine ⟨⟨rfl, hd, g1⟩, ?_, [d] :: parts, ?_, ?_, ?_⟩
      · rw [List.forall_mem_cons, g2, List.forall_mem_cons (a := (p, y, d))]
      · intro r hr
        rcases List.mem_cons.1 hr with rfl | hr
        · simp
        · exact g3 r hr
      · simp [g4]
      · simp [g5]

theorem rmFrom_concat (p : Nat) : ∀ (l : List Nat) (d : Nat), rmStridesFrom p (l ++ [d]) = rmStridesFrom (p * d) l ++ [p]
  | [], d => by simp [rmStridesFrom_cons, rmStridesFrom]
  | a :: l, d => by
    rw [List.cons_append, rmStridesFrom_cons, rmStridesFrom_cons, rmFrom_concat p l d, List.prod_append, List.prod_singleton, List.cons_append]
    congr 1
    ring

theorem reg_strides : ∀ (l : List (Nat × Nat × Nat)) (p : Nat), Reg p l → l.reverse.map (·.1) = rmStridesFrom p (l.reverse.map (·.2.2))
  | [], p, _ => by simp [rmStridesFrom]
  | (xs, y, d) :: l, p, h => by
    obtain ⟨rfl, _, h⟩ := h
    simp only [List.reverse_cons, List.map_append, List.map_cons, List.map_nil]
    rw [rmFrom_concat, reg_strides l _ h]

theorem reg_two : ∀ (l : List (Nat × Nat × Nat)) (p : Nat), Reg p l → ∀ d ∈ l.map (·.2.2), 2 ≤ d
  | [], _, _ => by simp
  | (xs, y, d) :: l, p, h => by
    intro e he
    rw [List.map_cons, List.mem_cons] at he
    rcases he with rfl | he
    · exact h.2.1
    · exact reg_two l _ h.2.2 e he

theorem rm_reg : ∀ (dims ys : List Nat), ys.length = dims.length → (∀ d ∈ dims, 2 ≤ d) → ∀ (p : Nat) (L : List (Nat × Nat × Nat)),
    Reg (p * dims.prod) L → Reg p (((rmStridesFrom p dims).zip (ys.zip dims)).reverse ++ L)
  | [], [], _, _, p, L, h => by simpa using h
  | d :: dims, y :: ys, hl, h2, p, L, h => by
    rw [rmStridesFrom_cons, List.zip_cons_cons, List.zip_cons_cons, List.reverse_cons, List.append_assoc, List.singleton_append]
    refine rm_reg dims ys (by simpa using hl) (fun e he => h2 e (List.mem_cons_of_mem _ he)) p _ ⟨rfl, h2 d (by simp), ?_⟩
    rw [List.prod_cons] at h
    rwa [Nat.mul_assoc, Nat.mul_comm dims.prod d]

theorem prod_pos_of_two {l : List Nat} (h : ∀ d ∈ l, 2 ≤ d) : 0 < l.prod := by
  induction l with
  | nil => simp
  | cons a l ih =>
    rw [List.prod_cons]
    exact Nat.mul_pos (by have := h a (by simp); omega) (ih fun d hd => h d (List.mem_cons_of_mem _ hd))

theorem rm_decr {dims : List Nat} (h : ∀ d ∈ dims, 2 ≤ d) : (rmStrides dims).Pairwise (· > ·) ∧ ∀ s ∈ rmStrides dims, s < dims.prod := by
  induction dims with
  | nil => simp
  | cons d dims ih =>
    obtain ⟨g1, g2⟩ := ih fun e he => h e (List.mem_cons_of_mem _ he)
    have hp := prod_pos_of_two fun e he => h e (List.mem_cons_of_mem d he)
    have hd := h d (by simp)
    have hlt : dims.prod < d * dims.prod := by
      have := Nat.mul_le_mul hd (Nat.le_refl dims.prod)
      omega
    rw [rmStrides_cons, List.prod_cons]
    refine ⟨List.pairwise_cons.2 ⟨g2, g1⟩, fun s hs => ?_⟩
    rcases List.mem_cons.1 hs with rfl | hs
    · exact hlt
    · exact Nat.lt_trans (g2 s hs) hlt

theorem ordering_decr {v : List Nat} (hs : ∀ s ∈ v, s < intMax) (hd : v.Pairwise (· > ·)) : ordering v = (List.range v.length).reverse := by
  obtain ⟨h1, h2⟩ := ordering_spec v hs
  refine List.Perm.eq_of_pairwise (le := (· > ·)) (fun a b _ _ h h' => by omega) ?_ ?_ (h1.trans (List.reverse_perm _).symm)
  · refine List.Pairwise.imp_of_mem (fun {a b} ha hb hab => ?_) h2
    have ha := List.mem_range.1 (h1.mem_iff.1 ha)
    have hb := List.mem_range.1 (h1.mem_iff.1 hb)
    rw [List.getElem?_eq_getElem ha, List.getElem?_eq_getElem hb] at hab
    simp only [Option.getD_some] at hab
    by_contra hn
    rcases Nat.lt_or_ge a b with hlt | hge
    · have := List.pairwise_iff_getElem.1 hd a b ha hb hlt
      omega
    · have : a = b := by omega
      subst this
      omega
  · rw [List.pairwise_reverse]
    exact List.pairwise_lt_range

/-- Merging the axes of a row-major tensor without axes of length one gives a row-major tensor, and the other is row-major just when it was. -/
theorem scrunch_new (q : Nat) (x : View) (hx : x.WF) (h2 : ∀ d ∈ x.dims, 2 ≤ d) (hb : x.dims.prod ≤ intMax) :
    ∃ ds ss, (View.new q x.dims).coScrunch x = .ok (View.new q ds, ⟨x.off, ds, ss⟩) ∧ ss.length = ds.length ∧ (∀ d ∈ ds, 2 ≤ d) ∧ Grouped x.dims ds ∧
      (ss = rmStrides ds ↔ x.strides = rmStrides x.dims) := by
  have hx' : x.strides.length = x.dims.length := hx
  obtain ⟨g1, g2⟩ := rm_decr h2
  have ho := ordering_decr (fun s hs => Nat.lt_of_lt_of_le (g2 s hs) hb) g1
  have hax : ((ordering (rmStrides x.dims)).map fun j => ((rmStrides x.dims)[j]?.getD 0, x.strides[j]?.getD 0, x.dims[j]?.getD 0)) =
      ((rmStrides x.dims).zip (x.strides.zip x.dims)).reverse := by
    rw [ho, List.map_reverse]
    congr 1
    apply List.ext_getElem
    · simp [hx']
    · intro i i1 i2
      simp only [List.length_map, List.length_range, rmStrides_length] at i1
      simp [List.getElem?_eq_getElem, i1, hx']
  have hreg := rm_reg x.dims x.strides hx' h2 1 [] trivial
  rw [List.append_nil] at hreg
  change Reg 1 ((rmStrides x.dims).zip (x.strides.zip x.dims)).reverse at hreg
  have hdims : ((rmStrides x.dims).zip (x.strides.zip x.dims)).map (·.2.2) = x.dims := by
    apply List.ext_getElem <;> simp [hx']
  have heq : (∀ a ∈ ((rmStrides x.dims).zip (x.strides.zip x.dims)).reverse, a.2.1 = a.1) ↔ x.strides = rmStrides x.dims := by
    constructor
    · intro h
      apply List.ext_getElem
      · simp [hx']
      · intro i i1 i2
        have := h (((rmStrides x.dims).zip (x.strides.zip x.dims))[i]'(by simp [hx'] at *; omega)) (List.mem_reverse.2 (List.getElem_mem _))
        simpa using this
    · intro h a ha
      obtain ⟨i, hi, rfl⟩ := List.mem_iff_getElem.1 (List.mem_reverse.1 ha)
      simp [h]
  have hL : ((rmStrides x.dims).zip (x.strides.zip x.dims)).reverse.map (·.2.2) = x.dims.reverse := by rw [List.map_reverse, hdims]
  unfold coScrunch
  simp only [View.new, decide_true, Res.assrt_true, Res.ok_bind, hax]
  generalize ((rmStrides x.dims).zip (x.strides.zip x.dims)).reverse = L at *
  have key : Reg 1 (coScrunchAxes L) ∧ ((∀ a ∈ coScrunchAxes L, a.2.1 = a.1) ↔ ∀ a ∈ L, a.2.1 = a.1) ∧
      ∃ parts : List (List Nat), (∀ q ∈ parts, q ≠ []) ∧ parts.flatten = L.map (·.2.2) ∧ parts.map List.prod = (coScrunchAxes L).map (·.2.2) := by
    match L, hreg with
    | [], _ => exact ⟨trivial, Iff.rfl, [], by simp, by simp, by simp [coScrunchAxes]⟩
    | (xs, y, d) :: l, h =>
      obtain ⟨rfl, hd, h⟩ := h
      exact scrunch_reg l 1 y d hd h
  obtain ⟨k1, k2, parts, k3, k4, k5⟩ := key
  refine ⟨(coScrunchAxes L).reverse.map (·.2.2), (coScrunchAxes L).reverse.map (·.2.1), ?_, by simp, ?_, ?_, ?_⟩
  · rw [reg_strides _ _ k1]; rfl
  · intro d hd
    rw [List.map_reverse, List.mem_reverse] at hd
    exact reg_two _ _ k1 d hd
  · refine ⟨(parts.map List.reverse).reverse, ?_, ?_, ?_⟩
    · intro r hr
      obtain ⟨s, hs, rfl⟩ := List.mem_map.1 (List.mem_reverse.1 hr)
      simpa using k3 s hs
    · rw [← List.reverse_flatten, k4, hL, List.reverse_reverse]
    · rw [List.map_reverse, List.map_map, List.map_reverse, ← k5]
      congr 1
      refine List.map_congr_left fun s _ => ?_
      simp [List.prod_reverse]
  · rw [← heq, ← k2]
    change _ = rmStridesFrom 1 _ ↔ _
    rw [← reg_strides _ _ k1]
    rw [List.map_reverse, List.map_reverse, List.reverse_inj]
    constructor
    · intro h a ha
      exact (List.map_inj_left.1 h) a ha
    · intro h
      exact List.map_inj_left.2 h

/-! ### Memories -/

section mems

variable (m : Mems α) (d e : Bool) (b : Buf α) (junk : Nat → α) (n : Nat)

@[simp] theorem buf_put : (m.put d b).buf d = b := by cases d <;> rfl

theorem buf_put_ne (h : e ≠ d) : (m.put d b).buf e = m.buf e := by cases d <;> cases e <;> first | rfl | exact absurd rfl h

@[simp] theorem top_put : (m.put d b).top e = m.top e := by cases d <;> cases e <;> rfl

@[simp] theorem buf_alloc : (m.alloc junk d n).buf d = allocRaw junk (m.buf d) (m.top d) n := by cases d <;> rfl

theorem buf_alloc_ne (h : e ≠ d) : (m.alloc junk d n).buf e = m.buf e := by cases d <;> cases e <;> first | rfl | exact absurd rfl h

@[simp] theorem top_alloc : (m.alloc junk d n).top d = m.top d + n := by cases d <;> rfl

theorem top_alloc_ne (h : e ≠ d) : (m.alloc junk d n).top e = m.top e := by cases d <;> cases e <;> first | rfl | exact absurd rfl h

theorem top_alloc_le : m.top e ≤ (m.alloc junk d n).top e := by
  by_cases h : e = d
  · subst h; simp
  · rw [top_alloc_ne _ _ _ _ _ h]

theorem buf_alloc_lt {c : Nat} (h : c < m.top e) : (m.alloc junk d n).buf e c = m.buf e c := by
  by_cases he : e = d
  · subst he; rw [buf_alloc, allocRaw, if_neg (by omega)]
  · rw [buf_alloc_ne _ _ _ _ _ he]

theorem gpu_buf : m.gpu = m.buf true := rfl

theorem host_buf : m.host = m.buf false := rfl

end mems

theorem Mems.Ok.alloc {m : Mems α} (h : m.Ok) (d : Bool) (junk : Nat → α) (n : Nat) : (m.alloc junk d n).Ok := by
  intro e c hc
  by_cases he : e = d
  · subst he
    rw [top_alloc] at hc
    rw [buf_alloc, allocRaw, if_neg (by omega)]
    exact h e c (by omega)
  · rw [top_alloc_ne _ _ _ _ _ he] at hc
    rw [buf_alloc_ne _ _ _ _ _ he]
    exact h e c hc

/-- An allocated cell lies below the end. -/
theorem Mems.Ok.lt {m : Mems α} (h : m.Ok) {d : Bool} {c : Nat} {v : α} (hc : m.buf d c = some v) : c < m.top d := by
  rcases Nat.lt_or_ge c (m.top d) with g | g
  · exact g
  · rw [h d c g] at hc; cases hc

theorem Holds.alloc {m : Mems α} (h : m.Ok) {x : DV} {f : List Nat → α} (hx : Holds m x f) (d : Bool) (junk : Nat → α) (n : Nat) : Holds (m.alloc junk d n) x f :=
  ⟨hx.1, fun ix hi => by rw [buf_alloc_lt _ _ _ _ _ (h.lt (hx.2 ix hi))]; exact hx.2 ix hi⟩

/-- What an assignment should do: the target holds `f`, other cells in use before are unchanged. -/
def Assigned (m m' : Mems α) (r : DV) (f : List Nat → α) : Prop :=
  (∀ ix, InRange ix r.v.dims → m'.buf r.dev (r.v.cell ix) = some (f ix)) ∧ (∀ d, m.top d ≤ m'.top d) ∧
    ∀ d c, c < m.top d → (d = r.dev → ∀ ix, InRange ix r.v.dims → c ≠ r.v.cell ix) → m'.buf d c = m.buf d c

theorem assigned_put {m : Mems α} {r : DV} {f : List Nat → α} {b : Buf α} (h : Updated r.v (fun ix => some (f ix)) (m.buf r.dev) b) :
    Assigned m (m.put r.dev b) r f := by
  refine ⟨fun ix hi => by rw [buf_put]; exact h.1 ix hi, fun d => by rw [top_put], fun d c _ hc => ?_⟩
  by_cases hd : d = r.dev
  · subst hd
    rw [buf_put]
    exact h.2 c (hc rfl)
  · rw [buf_put_ne _ _ _ _ hd]

/-! ### Copying whole blocks -/

theorem memcpy_ok (src : Buf α) (s n : Nat) (dst : Buf α) (d : Nat) (g : Nat → α) (hs : ∀ i, i < n → src (s + i) = some (g i)) (hd : ∀ i, i < n → (dst (d + i)).isSome) :
    ∃ b, memcpy src s n dst d = .ok b ∧ (∀ i, i < n → b (d + i) = some (g i)) ∧ ∀ c, (∀ i, i < n → c ≠ d + i) → b c = dst c := by
  obtain ⟨b, h1, h2, h3⟩ := cells_run (List.range n) (fun i => d + i) g (fun b i => do let v ← src.read (s + i); b.write (d + i) v) dst List.nodup_range
    (fun i _ j _ e => by omega) (fun i hi => hd i (List.mem_range.1 hi)) (fun i hi b _ => by rw [Buf.read, hs i (List.mem_range.1 hi)]; rfl)
  exact ⟨b, h1, fun i hi => h2 i (List.mem_range.2 hi), fun c hc => h3 c fun i hi => hc i (List.mem_range.1 hi)⟩

theorem contig_cells (v : View) (h : v.WF) (hperm : (axCells (v.dims.zip v.strides)).Perm (List.range v.dims.prod)) :
    (∀ ix, InRange ix v.dims → dot v.strides ix < v.dims.prod) ∧ ∀ i, i < v.dims.prod → ∃ ix, InRange ix v.dims ∧ dot v.strides ix = i := by
  rw [← map_dot_eq_axCells _ _ (show v.dims.length = v.strides.length from h.symm)] at hperm
  refine ⟨fun ix hi => List.mem_range.1 (hperm.mem_iff.1 (List.mem_map.2 ⟨ix, mem_allIndices.2 hi, rfl⟩)), fun i hi => ?_⟩
  obtain ⟨ix, h1, h2⟩ := List.mem_map.1 (hperm.mem_iff.2 (List.mem_range.2 hi))
  exact ⟨ix, mem_allIndices.1 h1, h2⟩

/-- Two tensors of equal strides without gaps. -/
theorem assignCopy_ok (r x : DV) (m : Mems α) (f : List Nat → α) (hr : r.v.WF) (hd : r.v.dims = x.v.dims) (hs : r.v.strides = x.v.strides)
    (hz : r.v.strides = [] ∨ ∃ s ∈ r.v.strides, s ≠ 0) (hp : 0 < r.v.dims.prod) (hdist : r.v.Distinct) (hc : isContiguous r.v.strides r.v.dims = .ok true)
    (ha : r.v.Alloc (m.buf r.dev)) (hx : Holds m x f) (hap : r.dev = x.dev → r.v.Apart x.v) :
    ∃ b, assignCopy r x m = .ok (m.put r.dev b) ∧ Updated r.v (fun ix => some (f ix)) (m.buf r.dev) b := by
  obtain ⟨hperm, hms⟩ := distinct_contiguous r.v hr hp hdist hc
  obtain ⟨c1, c2⟩ := contig_cells r.v hr hperm
  have hms := hms hz
  rw [assignCopy, ← hs, ← hd, hms, Res.ok_bind]
  by_cases hdv : r.dev = x.dev
  · rw [if_pos hdv]
    have hno : ¬ (r.v.off < x.v.off + r.v.dims.prod ∧ x.v.off < r.v.off + r.v.dims.prod) := by
      rintro ⟨h1, h2⟩
      obtain ⟨ix, g1, g2⟩ := c2 (max r.v.off x.v.off - r.v.off) (by omega)
      obtain ⟨jx, g3, g4⟩ := c2 (max r.v.off x.v.off - x.v.off) (by omega)
      refine hap hdv ix jx g1 (hd ▸ g3) ?_
      rw [View.cell, View.cell, ← hs, g2, g4]
      omega
    rw [if_neg fun h => hno h.2]
    have hov : ¬ (x.v.off ≤ r.v.off ∧ r.v.off < x.v.off + r.v.dims.prod) := by omega
    have hbulk := bulk_perm r.v x.v hr hs hperm
    have hxv : ∀ ix, InRange ix r.v.dims → m.buf r.dev (x.v.cell ix) = some (f ix) := fun ix hi => by rw [hdv]; exact hx.2 ix (hd ▸ hi)
    obtain ⟨b, h1, h2⟩ := upd_updated (fun _ b => b) r.v x.v hd hdist (fun ix jx h1 h2 e => absurd e (hap hdv ix jx h1 h2)) (m.buf r.dev) ha
      (fun ix hi => by rw [hxv ix (hd ▸ hi)]; rfl) _ hbulk
    refine ⟨b, ?_, fun ix hi => ?_, h2.2⟩
    · have : stdCopy (m.buf r.dev) x.v.off r.v.dims.prod r.v.off = .ok b := by
        rw [← h1, stdCopy, if_neg hov, loop, runUpd, forM_map]
        simp only [copyCell_eq]
      rw [this]
      rfl
    · rw [h2.1 ix hi]
      obtain ⟨a, hav⟩ := Option.isSome_iff_exists.1 (ha ix hi)
      have hav' : r.v.val (m.buf r.dev) ix = some a := hav
      have hxv' : x.v.val (m.buf r.dev) ix = some (f ix) := hxv ix hi
      simp [hav', hxv']
  · rw [if_neg hdv]
    classical
    let g : Nat → α := fun i => if h : i < r.v.dims.prod then f (Classical.choose (c2 i h)) else f []
    have hg : ∀ ix, InRange ix r.v.dims → g (dot r.v.strides ix) = f ix := by
      intro ix hi
      have hlt := c1 ix hi
      have hsp := Classical.choose_spec (c2 _ hlt)
      show dite _ _ _ = _
      rw [dif_pos hlt]
      congr 1
      exact hdist _ _ hsp.1 hi (by rw [View.cell, View.cell, hsp.2])
    obtain ⟨b, h1, h2, h3⟩ := memcpy_ok (m.buf x.dev) x.v.off r.v.dims.prod (m.buf r.dev) r.v.off g
      (fun i hi => by
        obtain ⟨ix, g1, rfl⟩ := c2 i hi
        rw [hg ix g1, hs]
        exact hx.2 ix (hd ▸ g1))
      (fun i hi => by
        obtain ⟨ix, g1, rfl⟩ := c2 i hi
        exact ha ix g1)
    refine ⟨b, by rw [h1]; rfl, fun ix hi => ?_, fun c hc => h3 c fun i hi => ?_⟩
    · rw [View.cell, h2 _ (c1 ix hi), hg ix hi]
    · obtain ⟨ix, g1, rfl⟩ := c2 i hi
      exact hc ix g1

/-! ### The kernel -/

theorem inRange1 {n : Nat} {ix : List Nat} : InRange ix [n] ↔ ∃ i, i < n ∧ ix = [i] := by
  constructor
  · rintro (_ | ⟨h, h'⟩)
    cases h'
    exact ⟨_, h, rfl⟩
  · rintro ⟨i, h, rfl⟩
    exact .cons h .nil

theorem inRange2 {n k : Nat} {ix : List Nat} : InRange ix [n, k] ↔ ∃ i j, i < n ∧ j < k ∧ ix = [i, j] := by
  constructor
  · rintro (_ | ⟨h, _ | ⟨h', h''⟩⟩)
    cases h''
    exact ⟨_, _, h, h', rfl⟩
  · rintro ⟨i, j, h, h', rfl⟩
    exact .cons h (.cons h' .nil)

theorem inRange3 {n k l : Nat} {ix : List Nat} : InRange ix [n, k, l] ↔ ∃ i j p, i < n ∧ j < k ∧ p < l ∧ ix = [i, j, p] := by
  constructor
  · rintro (_ | ⟨h, _ | ⟨h', _ | ⟨h'', h3⟩⟩⟩)
    cases h3
    exact ⟨_, _, _, h, h', h'', rfl⟩
  · rintro ⟨i, j, p, h, h', h'', rfl⟩
    exact .cons h (.cons h' (.cons h'' .nil))

theorem kern_ok [Add α] {kern : View → View → Buf α → Res (Buf α)} (hk : Picks kern) (r x : View) (m : Buf α) (f : List Nat → α) (hr : r.WF) (hx : x.WF) (hd : r.dims = x.dims)
    (hh : Handled r.dims) (hdist : r.Distinct) (hap : r.Apart x) (ha : r.Alloc m) (hxv : ∀ ix, InRange ix x.dims → m (x.cell ix) = some (f ix)) :
    ∃ b, kern r x m = .ok b ∧ Updated r (fun ix => some (f ix)) m b := by
  have hout := hk r x m
  obtain ⟨ro, rd, rs⟩ := r
  obtain ⟨xo, xd, xs⟩ := x
  have hr : rs.length = rd.length := hr
  have hx : xs.length = xd.length := hx
  dsimp only at hd hh
  subst hd
  have hav : ∃ g : List Nat → α, ∀ ix, InRange ix rd → m (ro + dot rs ix) = some (g ix) := by
    classical
    refine ⟨fun ix => if h : InRange ix rd then (m (ro + dot rs ix)).get (ha ix h) else f ix, fun ix h => ?_⟩
    show _ = some (dite _ _ _)
    rw [dif_pos h]
    exact (Option.some_get _).symm
  obtain ⟨g, hg⟩ := hav
  have hxv : ∀ ix, InRange ix rd → m (xo + dot xs ix) = some (f ix) := hxv
  have hdist : ∀ ix jx, InRange ix rd → InRange jx rd → ro + dot rs ix = ro + dot rs jx → ix = jx := hdist
  have hap : ∀ ix jx, InRange ix rd → InRange jx rd → ro + dot rs ix ≠ xo + dot xs jx := hap
  match rd, rs, xs, hr, hx, hh with
  | [n0], [r0], [x0], _, _, hh =>
    have c1 : ∀ i, (⟨ro, n0, r0⟩ : RV1).cell i = ro + dot [r0] [i] := fun i => by simp [RV1.cell, dot]
    have c2 : ∀ i, (⟨xo, n0, x0⟩ : RV1).cell i = xo + dot [x0] [i] := fun i => by simp [RV1.cell, dot]
    obtain ⟨b, h1, h2⟩ := (C422_assign (⟨ro, n0, r0⟩ : RV1) ⟨xo, n0, x0⟩ m (fun i => g [i]) (fun i => f [i]) hh.1 hh.2
      ⟨fun i j hi hj e => by rw [c1, c1] at e; simpa using hdist [i] [j] (inRange1.2 ⟨i, hi, rfl⟩) (inRange1.2 ⟨j, hj, rfl⟩) e,
       fun i j hi hj e => by rw [c1, c2] at e; exact absurd e (hap [i] [j] (inRange1.2 ⟨i, hi, rfl⟩) (inRange1.2 ⟨j, hj, rfl⟩)),
       fun i hi => by rw [c1]; exact hg [i] (inRange1.2 ⟨i, hi, rfl⟩), fun i hi => by rw [c2]; exact hxv [i] (inRange1.2 ⟨i, hi, rfl⟩)⟩).2 _ hout
    refine ⟨b, h1, fun ix hi => ?_, fun c hc => h2.2 c fun i hi => ?_⟩
    · obtain ⟨i, hi', rfl⟩ := inRange1.1 hi
      have := h2.1 i hi'
      rwa [c1] at this
    · rw [c1]; exact hc [i] (inRange1.2 ⟨i, hi, rfl⟩)
  | [n0, n1], [r0, r1], [x0, x1], _, _, hh =>
    have c1 : ∀ i j, (⟨ro, n0, n1, r0, r1⟩ : RV2).cell i j = ro + dot [r0, r1] [i, j] := fun i j => by simp [RV2.cell, dot, Nat.add_assoc]
    have c2 : ∀ i j, (⟨xo, n0, n1, x0, x1⟩ : RV2).cell i j = xo + dot [x0, x1] [i, j] := fun i j => by simp [RV2.cell, dot, Nat.add_assoc]
    obtain ⟨b, h1, h2⟩ := (C424_assign (⟨ro, n0, n1, r0, r1⟩ : RV2) ⟨xo, n0, n1, x0, x1⟩ m (fun q => g [q.1, q.2]) (fun q => f [q.1, q.2]) hh.1 hh.2
      ⟨fun i j hi hj e => by
          rw [c1, c1] at e
          have := hdist _ _ (inRange2.2 ⟨_, _, hi.1, hi.2, rfl⟩) (inRange2.2 ⟨_, _, hj.1, hj.2, rfl⟩) e
          simp only [List.cons.injEq, and_true] at this
          exact Prod.ext this.1 this.2,
       fun i j hi hj e => by rw [c1, c2] at e; exact absurd e (hap _ _ (inRange2.2 ⟨_, _, hi.1, hi.2, rfl⟩) (inRange2.2 ⟨_, _, hj.1, hj.2, rfl⟩)),
       fun i hi => by rw [c1]; exact hg _ (inRange2.2 ⟨_, _, hi.1, hi.2, rfl⟩), fun i hi => by rw [c2]; exact hxv _ (inRange2.2 ⟨_, _, hi.1, hi.2, rfl⟩)⟩).2 _ hout
    refine ⟨b, h1, fun ix hi => ?_, fun c hc => h2.2 c fun q hi => ?_⟩
    · obtain ⟨i, j, hi', hj, rfl⟩ := inRange2.1 hi
      have := h2.1 (i, j) ⟨hi', hj⟩
      dsimp only at this
      rwa [c1] at this
    · dsimp only; rw [c1]; exact hc _ (inRange2.2 ⟨_, _, hi.1, hi.2, rfl⟩)
  | [n0, n1, n2], [r0, r1, r2], [x0, x1, x2], _, _, hh =>
    have c1 : ∀ i j p, (⟨ro, n0, n1, n2, r0, r1, r2⟩ : RV3).cell i j p = ro + dot [r0, r1, r2] [i, j, p] := fun i j p => by simp [RV3.cell, dot, Nat.add_assoc]
    have c2 : ∀ i j p, (⟨xo, n0, n1, n2, x0, x1, x2⟩ : RV3).cell i j p = xo + dot [x0, x1, x2] [i, j, p] := fun i j p => by simp [RV3.cell, dot, Nat.add_assoc]
    obtain ⟨b, h1, h2⟩ := (C426_assign (⟨ro, n0, n1, n2, r0, r1, r2⟩ : RV3) ⟨xo, n0, n1, n2, x0, x1, x2⟩ m (fun q => g [q.1, q.2.1, q.2.2]) (fun q => f [q.1, q.2.1, q.2.2])
      hh.1 hh.2.1 hh.2.2.1 hh.2.2.2
      ⟨fun i j hi hj e => by
          rw [c1, c1] at e
          have := hdist _ _ (inRange3.2 ⟨_, _, _, hi.1, hi.2.1, hi.2.2, rfl⟩) (inRange3.2 ⟨_, _, _, hj.1, hj.2.1, hj.2.2, rfl⟩) e
          simp only [List.cons.injEq, and_true] at this
          exact Prod.ext this.1 (Prod.ext this.2.1 this.2.2),
       fun i j hi hj e => by
          rw [c1, c2] at e
          exact absurd e (hap _ _ (inRange3.2 ⟨_, _, _, hi.1, hi.2.1, hi.2.2, rfl⟩) (inRange3.2 ⟨_, _, _, hj.1, hj.2.1, hj.2.2, rfl⟩)),
       fun i hi => by rw [c1]; exact hg _ (inRange3.2 ⟨_, _, _, hi.1, hi.2.1, hi.2.2, rfl⟩), fun i hi => by rw [c2]; exact hxv _ (inRange3.2 ⟨_, _, _, hi.1, hi.2.1, hi.2.2, rfl⟩)⟩).2 _ hout
    refine ⟨b, h1, fun ix hi => ?_, fun c hc => h2.2 c fun q hi => ?_⟩
    · obtain ⟨i, j, p, hi', hj, hp, rfl⟩ := inRange3.1 hi
      have := h2.1 (i, j, p) ⟨hi', hj, hp⟩
      dsimp only at this
      rwa [c1] at this
    · dsimp only; rw [c1]; exact hc _ (inRange3.2 ⟨_, _, _, hi.1, hi.2.1, hi.2.2, rfl⟩)

/-! ### Assignment -/

/-- Where `r=x` makes sense: `r` has cells of its own, `x` holds `f`. -/
structure Tgt (m : Mems α) (r x : DV) (f : List Nat → α) : Prop where
  wf : r.v.WF
  dims : r.v.dims = x.v.dims
  nz : r.v.strides = [] ∨ ∃ s ∈ r.v.strides, s ≠ 0
  dist : r.v.Distinct
  alloc : r.v.Alloc (m.buf r.dev)
  holds : Holds m x f
  apart : r.dev = x.dev → r.v.Apart x.v

theorem Tgt.next {m : Mems α} {r x : DV} {f : List Nat → α} (t : Tgt m r x f) {b : Buf α} (h : Updated r.v (fun ix => some (f ix)) (m.buf r.dev) b) : Tgt (m.put r.dev b) r x f := by
  refine ⟨t.wf, t.dims, t.nz, t.dist, fun ix hi => by rw [buf_put, h.1 ix hi]; rfl, ⟨t.holds.1, fun ix hi => ?_⟩, t.apart⟩
  by_cases e : x.dev = r.dev
  · rw [e, buf_put, h.2 _ fun jx hj => (t.apart e.symm jx ix hj hi).symm, ← e]
    exact t.holds.2 ix hi
  · rw [buf_put_ne _ _ _ _ e]
    exact t.holds.2 ix hi

theorem put_put (m : Mems α) (d : Bool) (b c : Buf α) : (m.put d b).put d c = m.put d c := by cases d <;> rfl

variable (kern : View → View → Buf α → Res (Buf α)) (junk : Nat → α) (num : Bool)

/-- Tensors of equal strides without gaps. -/
theorem assign_flat (f : Nat) {m : Mems α} {r x : DV} {F : List Nat → α} (t : Tgt m r x F) (hs : r.v.strides = x.v.strides) (hc : isContiguous r.v.strides r.v.dims = .ok true) :
    ∃ b, assign kern junk num (f + 1) r x m = .ok (m.put r.dev b) ∧ Updated r.v (fun ix => some (F ix)) (m.buf r.dev) b := by
  have hdec : decide (r.v.dims = x.v.dims) = true := decide_eq_true t.dims
  rw [assign, hdec, Res.assrt_true, Res.ok_bind]
  by_cases h0 : r.v.dims = []
  · have hp : 0 < r.v.dims.prod := by rw [h0]; simp
    have ha : ¬ asize r.v.dims = 0 := by rw [asize_eq]; omega
    obtain ⟨b, h1, h2⟩ := assignCopy_ok r x m F t.wf t.dims hs t.nz hp t.dist hc t.alloc t.holds t.apart
    have hm : (if r.v.dims.length = 0 then (if r.dev = false ∧ x.dev = false then do
        let b ← copyCell m.host r.v.off x.v.off
        Res.ok (m.put false b)
      else assignCopy r x m) else Res.ok m) = .ok (m.put r.dev b) := by
      rw [if_pos (by rw [h0]; rfl)]
      by_cases hh : r.dev = false ∧ x.dev = false
      · rw [if_pos hh, ← h1]
        have hx0 : x.v.dims = [] := by rw [← t.dims, h0]
        have hxs : x.v.strides = [] := List.length_eq_zero_iff.1 (by rw [show x.v.strides.length = x.v.dims.length from t.holds.1, hx0]; rfl)
        have hms : memsize ([] : List Nat) [] = .ok 1 := rfl
        have hap := t.apart (hh.1.trans hh.2.symm) [] [] (h0 ▸ .nil) (hx0 ▸ .nil)
        simp only [View.cell, dot_nil_right, Nat.add_zero] at hap
        rw [assignCopy, hxs, hx0, hms, Res.ok_bind, if_pos (hh.1.trans hh.2.symm), if_neg (by rw [hh.1]; simp), stdCopy, if_neg (by omega), loop, List.range_one]
        rw [Res.forM_cons, Nat.add_zero, Nat.add_zero, hh.1]
        show (copyCell (m.buf false) r.v.off x.v.off >>= _) = _
        cases copyCell (m.buf false) r.v.off x.v.off <;> rfl
      · rw [if_neg hh, h1]
    rw [hm, Res.ok_bind, if_neg ha, hc, Res.ok_bind, if_pos ⟨rfl, hs⟩]
    obtain ⟨b', h1', h2'⟩ := assignCopy_ok r x _ F t.wf t.dims hs t.nz hp t.dist hc (t.next h2).alloc (t.next h2).holds t.apart
    refine ⟨b', by rw [h1', put_put], h2'.1, fun c hc => ?_⟩
    rw [h2'.2 c hc, buf_put, h2.2 c hc]
  · have hl : ¬ r.v.dims.length = 0 := by simpa using h0
    rw [if_neg hl, Res.ok_bind]
    by_cases hp : asize r.v.dims = 0
    · rw [if_pos hp]
      refine ⟨m.buf r.dev, ?_, fun ix hix => ?_, fun c _ => rfl⟩
      · cases r.dev <;> rfl
      · exfalso
        rw [asize_eq] at hp
        have := mem_allIndices.2 hix
        have hl := allIndices_length r.v.dims
        rw [hp] at hl
        rw [List.length_eq_zero_iff.1 hl] at this
        simp at this
    · rw [if_neg hp, hc, Res.ok_bind, if_pos ⟨rfl, hs⟩]
      rw [asize_eq] at hp
      exact assignCopy_ok r x m F t.wf t.dims hs t.nz (Nat.pos_of_ne_zero hp) t.dist hc t.alloc t.holds t.apart

/-- Pairs of tensors that pair the same cells. -/
structure Same (r x r' x' : View) : Prop where
  fwd : ∀ ix, InRange ix r.dims → ∃ jx, InRange jx r'.dims ∧ r'.cell jx = r.cell ix ∧ x'.cell jx = x.cell ix
  back : ∀ jx, InRange jx r'.dims → ∃ ix, InRange ix r.dims ∧ r'.cell jx = r.cell ix ∧ x'.cell jx = x.cell ix
  dist : r.Distinct → r'.Distinct

theorem same_of_perm {r x r' x' : View} (h : (pairCells r' x').Perm (pairCells r x)) : Same r x r' x' := by
  refine ⟨fun ix hi => ?_, fun jx hj => ?_, fun hd => ?_⟩
  · have := h.mem_iff.2 (List.mem_map.2 ⟨ix, mem_allIndices.2 hi, rfl⟩)
    obtain ⟨jx, h1, h2⟩ := List.mem_map.1 this
    rw [Prod.mk.injEq] at h2
    exact ⟨jx, mem_allIndices.1 h1, h2.1, h2.2⟩
  · have := h.mem_iff.1 (List.mem_map.2 ⟨jx, mem_allIndices.2 hj, rfl⟩)
    obtain ⟨ix, h1, h2⟩ := List.mem_map.1 this
    rw [Prod.mk.injEq] at h2
    exact ⟨ix, mem_allIndices.1 h1, h2.1.symm, h2.2.symm⟩
  · intro ix jx hi hj e
    have hn : r'.cells.Nodup := by
      rw [← pairCells_fst r' x']
      exact (h.map Prod.fst).nodup_iff.2 (by rw [pairCells_fst]; exact cells_nodup r hd)
    exact List.inj_on_of_nodup_map hn (mem_allIndices.2 hi) (mem_allIndices.2 hj) e

/-- The entries of `x`, indexed as those of `x'`. -/
theorem Same.vals {r x r' x' : View} (s : Same r x r' x') (hd : r.dims = x.dims) (hd' : r'.dims = x'.dims) {b : Buf α} {F : List Nat → α}
    (h : ∀ ix, InRange ix x.dims → b (x.cell ix) = some (F ix)) :
    ∃ G : List Nat → α, (∀ jx, InRange jx x'.dims → b (x'.cell jx) = some (G jx)) ∧
      ∀ ix jx, InRange ix r.dims → InRange jx r'.dims → x'.cell jx = x.cell ix → G jx = F ix := by
  classical
  have h0 : ∀ jx, InRange jx x'.dims → (b (x'.cell jx)).isSome := fun jx hj => by
    obtain ⟨ix, h1, _, h2⟩ := s.back jx (hd' ▸ hj)
    rw [h2, h ix (hd ▸ h1)]; rfl
  refine ⟨fun jx => if hj : InRange jx x'.dims then (b (x'.cell jx)).get (h0 jx hj) else F jx, fun jx hj => ?_, fun ix jx hi hj e => ?_⟩
  · show _ = some (dite _ _ _)
    rw [dif_pos hj]
    exact (Option.some_get _).symm
  · show dite _ _ _ = _
    rw [dif_pos (hd' ▸ hj)]
    apply Option.some_injective
    rw [Option.some_get, e]
    exact h ix (hd ▸ hi)

theorem Same.updated {r x r' x' : View} (s : Same r x r' x') {b b' : Buf α} {F G : List Nat → α}
    (hG : ∀ ix jx, InRange ix r.dims → InRange jx r'.dims → x'.cell jx = x.cell ix → G jx = F ix) (h : Updated r' (fun ix => some (G ix)) b b') :
    Updated r (fun ix => some (F ix)) b b' := by
  refine ⟨fun ix hi => ?_, fun c hc => h.2 c fun jx hj e => ?_⟩
  · obtain ⟨jx, h1, h2, h3⟩ := s.fwd ix hi
    rw [← h2, h.1 jx h1]
    exact congrArg some (hG ix jx hi h1 h3)
  · obtain ⟨ix, h1, h2, _⟩ := s.back jx hj
    exact hc ix h1 (e.trans h2)

theorem contig_new (q : Nat) (ds : List Nat) : isContiguous (View.new q ds).strides (View.new q ds).dims = .ok true := by
  have h := (isRegular_iff ds (rmStrides ds)).2 rfl
  show isContiguous (rmStrides ds) ds = _
  rw [isContiguous, decide_eq_true (rmStrides_length _), Res.assrt_true, Res.ok_bind, h]
  rfl

theorem alloc_new (m : Mems α) (d : Bool) (g : Nat → α) (ds : List Nat) : (View.new (m.top d) ds).Alloc ((m.alloc g d (asize ds)).buf d) := by
  intro ix hi
  have hi : InRange ix ds := hi
  have := position_lt hi
  rw [new_cell _ hi, buf_alloc, allocRaw, asize_eq, if_pos (by omega)]
  rfl

/-- A new tensor. -/
theorem tgt_new {m : Mems α} (hm : m.Ok) {x : DV} {F : List Nat → α} (hx : Holds m x F) (d : Bool) (g : Nat → α) :
    Tgt (m.alloc g d (asize x.v.dims)) ⟨View.new (m.top d) x.v.dims, d⟩ x F := by
  refine ⟨TFun.new_WF _ _, rfl, TFun.new_nonzero _ _, TFun.new_distinct _ _, alloc_new m d g _, hx.alloc hm d g _, fun e ix jx hi hj h => ?_⟩
  have h1 := hm.lt (hx.2 jx hj)
  have hi : InRange ix x.v.dims := hi
  dsimp only at e
  rw [← h, ← e, new_cell _ hi] at h1
  omega

/-- What the merged tensors of a row-major target and a source are. -/
theorem scrunch_same (q : Nat) (x : View) (hx : x.WF) (h2 : ∀ d ∈ x.dims, 2 ≤ d) (hb : x.dims.prod ≤ intMax) :
    ∃ ds ss, (View.new q x.dims).coScrunch x = .ok (View.new q ds, ⟨x.off, ds, ss⟩) ∧ ss.length = ds.length ∧ (∀ d ∈ ds, 2 ≤ d) ∧ Grouped x.dims ds ∧
      (ss = rmStrides ds ↔ x.strides = rmStrides x.dims) ∧ Same (View.new q x.dims) x (View.new q ds) ⟨x.off, ds, ss⟩ := by
  obtain ⟨ds, ss, h1, h3, h4, h5, h6⟩ := scrunch_new q x hx h2 hb
  obtain ⟨r', x', g1, _, _, _, g5⟩ := C15_co_scrunch (View.new q x.dims) x (TFun.new_WF _ _) hx rfl fun s hs => Nat.lt_of_lt_of_le ((rm_decr h2).2 s hs) hb
  rw [h1] at g1
  injection g1 with g1
  rw [Prod.mk.injEq] at g1
  rw [← g1.1, ← g1.2] at g5
  exact ⟨ds, ss, h1, h3, h4, h5, h6, same_of_perm g5⟩

theorem grouped_prod {ds ds' : List Nat} (h : Grouped ds ds') : ds'.prod = ds.prod := by
  obtain ⟨p, _, rfl, rfl⟩ := h
  rw [List.prod_flatten]

theorem prod_ne_nil {ds : List Nat} (h2 : ∀ d ∈ ds, 2 ≤ d) {ss : List Nat} (hl : ss.length = ds.length) (hs : ss ≠ rmStrides ds) : ¬ ds.length = 0 ∧ ¬ asize ds = 0 := by
  constructor
  · intro h
    have := List.length_eq_zero_iff.1 h
    subst this
    exact hs (List.length_eq_zero_iff.1 hl)
  · rw [asize_eq]
    have := prod_pos_of_two h2
    omega

/-- From the GPU to a new tensor of the host. -/
theorem assign_home [Add α] (hk : Picks kern) (f : Nat) {m : Mems α} (hm : m.Ok) {x : View} {q : Nat} {F : List Nat → α} (t : Tgt m ⟨View.new q x.dims, false⟩ ⟨x, true⟩ F)
    (h2 : ∀ d ∈ x.dims, 2 ≤ d) (hb : x.dims.prod ≤ intMax) (hs : x.strides ≠ rmStrides x.dims) (hh : ∀ ds, Grouped x.dims ds → Handled ds) :
    ∃ m', assign kern junk true (f + 2) ⟨View.new q x.dims, false⟩ ⟨x, true⟩ m = .ok m' ∧ Assigned m m' ⟨View.new q x.dims, false⟩ F := by
  have hx : x.WF := t.holds.1
  obtain ⟨ds, ss, h1, h3, h4, h5, h6, same⟩ := scrunch_same q x hx h2 hb
  obtain ⟨l1, l2⟩ : ¬ (View.new q x.dims).dims.length = 0 ∧ ¬ asize (View.new q x.dims).dims = 0 := prod_ne_nil h2 hx hs
  have hp : 0 < ds.prod := prod_pos_of_two h4
  have hms : memsize (View.new q ds).strides (View.new q ds).dims = .ok ds.prod :=
    (distinct_contiguous (View.new q ds) (TFun.new_WF _ _) hp (TFun.new_distinct _ _) (contig_new _ _)).2 (TFun.new_nonzero _ _)
  obtain ⟨G, hG, hGF⟩ := same.vals rfl rfl t.holds.2
  have hxp : Holds m ⟨⟨x.off, ds, ss⟩, true⟩ G := ⟨h3, hG⟩
  have t1 := tgt_new hm hxp true junk
  have ho : Holds (m.alloc junk true ds.prod) ⟨⟨x.off, ds, ss⟩, true⟩ G := hxp.alloc hm _ _ _
  dsimp only at t1
  rw [asize_eq] at t1
  obtain ⟨b, k1, k2⟩ := kern_ok hk (View.new (m.top true) ds) ⟨x.off, ds, ss⟩ ((m.alloc junk true ds.prod).buf true) G (TFun.new_WF _ _) h3 rfl (hh ds h5) t1.dist (t1.apart rfl) t1.alloc
    ho.2
  have t2 : Tgt ((m.alloc junk true ds.prod).put true b) ⟨View.new q ds, false⟩ ⟨View.new (m.top true) ds, true⟩ G := by
    refine ⟨TFun.new_WF _ _, rfl, TFun.new_nonzero _ _, TFun.new_distinct _ _, fun ix hi => ?_, ⟨TFun.new_WF _ _, fun ix hi => ?_⟩, fun e => absurd e (by simp)⟩
    · obtain ⟨jx, g1, g2, _⟩ := same.back ix hi
      have := t.alloc jx g1
      rw [g2]
      rw [buf_put_ne _ _ _ _ (by simp), buf_alloc_ne _ _ _ _ _ (by simp)]
      exact this
    · rw [buf_put]; exact k2.1 ix hi
  obtain ⟨b', k3, k4⟩ := assign_flat kern junk true f t2 rfl (contig_new _ _)
  refine ⟨((m.alloc junk true ds.prod).put true b).put false b', ?_, ?_⟩
  · rw [assign]
    dsimp only
    rw [decide_eq_true (show (View.new q x.dims).dims = x.dims from rfl), Res.assrt_true, Res.ok_bind, if_neg l1, Res.ok_bind, if_neg l2, contig_new, Res.ok_bind,
      if_neg fun h => hs h.2.symm, h1, Res.ok_bind]
    dsimp only
    rw [if_neg (by simp), if_neg (by simp), if_neg (by simp), contig_new, Res.ok_bind, if_pos rfl, hms, Res.ok_bind]
    rw [show (⟨m.top true, (View.new q ds).dims, (View.new q ds).strides⟩ : View) = View.new (m.top true) ds from rfl, gpu_buf, k1, Res.ok_bind]
    exact k3
  · have hf : (((m.alloc junk true ds.prod).put true b).buf false) = m.buf false := by
      rw [buf_put_ne _ _ _ _ (by simp), buf_alloc_ne _ _ _ _ _ (by simp)]
    rw [hf] at k4
    have k5 := same.updated hGF k4
    refine ⟨fun ix hi => ?_, fun d => ?_, fun d c hc hn => ?_⟩
    · rw [buf_put]; exact k5.1 ix hi
    · rw [top_put, top_put]; exact top_alloc_le _ _ _ _ _
    · cases d with
      | false => rw [buf_put]; exact k5.2 c (hn rfl)
      | true =>
        rw [buf_put_ne _ _ _ _ (by simp), buf_put, k2.2 c, buf_alloc_lt _ _ _ _ _ hc]
        intro ix hi e
        have hi : InRange ix ds := hi
        rw [new_cell _ hi] at e
        omega

/-- Within the GPU, to a new tensor. -/
theorem assign_gpu [Add α] (hk : Picks kern) (f : Nat) {m : Mems α} {x : View} {q : Nat} {F : List Nat → α} (t : Tgt m ⟨View.new q x.dims, true⟩ ⟨x, true⟩ F)
    (h2 : ∀ d ∈ x.dims, 2 ≤ d) (hb : x.dims.prod ≤ intMax) (hs : x.strides ≠ rmStrides x.dims) (hh : ∀ ds, Grouped x.dims ds → Handled ds) :
    ∃ m', assign kern junk true (f + 1) ⟨View.new q x.dims, true⟩ ⟨x, true⟩ m = .ok m' ∧ Assigned m m' ⟨View.new q x.dims, true⟩ F := by
  have hx : x.WF := t.holds.1
  obtain ⟨ds, ss, h1, h3, h4, h5, h6, same⟩ := scrunch_same q x hx h2 hb
  obtain ⟨l1, l2⟩ : ¬ (View.new q x.dims).dims.length = 0 ∧ ¬ asize (View.new q x.dims).dims = 0 := prod_ne_nil h2 hx hs
  obtain ⟨G, hG, hGF⟩ := same.vals rfl rfl t.holds.2
  obtain ⟨b, k1, k2⟩ := kern_ok hk (View.new q ds) ⟨x.off, ds, ss⟩ (m.buf true) G (TFun.new_WF _ _) h3 rfl (hh ds h5) (TFun.new_distinct _ _)
    (fun ix jx hi hj e => by
      obtain ⟨ix', g1, g2, _⟩ := same.back ix hi
      obtain ⟨jx', g3, _, g4⟩ := same.back jx hj
      exact t.apart rfl ix' jx' g1 g3 (by rw [← g2, e, g4]))
    (fun ix hi => by
      obtain ⟨ix', g1, g2, _⟩ := same.back ix hi
      rw [g2]; exact t.alloc ix' g1) hG
  refine ⟨m.put true b, ?_, ?_⟩
  · rw [assign]
    dsimp only
    rw [decide_eq_true (show (View.new q x.dims).dims = x.dims from rfl), Res.assrt_true, Res.ok_bind, if_neg l1, Res.ok_bind, if_neg l2, contig_new, Res.ok_bind,
      if_neg fun h => hs h.2.symm, h1, Res.ok_bind]
    dsimp only
    rw [if_neg (by simp), if_neg (by simp), if_pos rfl, if_neg (by simp), gpu_buf, k1, Res.ok_bind]
  · exact assigned_put (r := ⟨View.new q x.dims, true⟩) (same.updated hGF k2)

end Dev

end Cnine
