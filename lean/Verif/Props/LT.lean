import Verif.Model.LT
import Verif.Props.LtensorSpec
import Verif.Props.Construct
import Verif.Props.RView2
import Mathlib.Data.List.GetD

/-! # C159-C164 labelled tensors: construction, batches, cells, fused views, products and reindexing -/

namespace Cnine

variable {α : Type}

namespace LT

/-! ## C159 -/

/-- A tensor made with a positive batch size, a grid and cells returns exactly these, and holds one element per
batch, grid position and cell position. -/
theorem C159_make (q b : Nat) (g c : List Nat) (hb : b ≠ 0) :
    (make q b g c).getb = .ok b ∧ (make q b g c).gdims = .ok g ∧ (make q b g c).cdims = .ok c ∧
      (make q b g c).bcdims = .ok (b :: c) ∧ (make q b g c).v = View.new q (b :: (g ++ c)) := by
  have hp : Parts (make q b g c).lab (make q b g c).v.dims [b] g c := by
    refine ⟨rfl, ?_, rfl⟩
    simp [make, Labels.nb, hb]
  refine ⟨?_, hp.gpart, hp.cpart, hp.bcpart, rfl⟩
  simp [getb, make, hb, View.new, Res.get]

example : make 100 2 [3] [4, 5] = ⟨⟨100, [2, 3, 4, 5], [60, 20, 5, 1]⟩, ⟨true, 1⟩⟩ := by decide

/-- The last value given for each of the named arguments. -/
def lastB (args : List LArg) (d : Nat) : Nat :=
  (args.filterMap fun | .batch b => some b | _ => none).getLast?.getD d
@[inherit_doc lastB] def lastG (args : List LArg) (d : List Nat) : List Nat :=
  (args.filterMap fun | .grid b => some b | _ => none).getLast?.getD d
@[inherit_doc lastB] def lastC (args : List LArg) (d : List Nat) : List Nat :=
  (args.filterMap fun | .dims b => some b | _ => none).getLast?.getD d

theorem getLast?_cons_getD {β : Type} (a d : β) (l : List β) : (a :: l).getLast?.getD d = l.getLast?.getD a := by
  rw [List.getLast?_cons]; cases l.getLast? <;> rfl

theorem unroll_eq (args : List LArg) (v : VParams) :
    (args.foldl unroll v).b = lastB args v.b ∧ (args.foldl unroll v).gdims = lastG args v.gdims ∧
      (args.foldl unroll v).cdims = lastC args v.cdims := by
  induction args generalizing v with
  | nil => exact ⟨rfl, rfl, rfl⟩
  | cons a args ih =>
    rw [List.foldl_cons]
    obtain ⟨h1, h2, h3⟩ := ih (unroll v a)
    rw [h1, h2, h3]
    cases a <;> simp [unroll, lastB, lastG, lastC, getLast?_cons_getD, List.filterMap_cons]

/-- The constructor with named arguments, a positive batch among them: the last value of each is used, the order of the kinds
does not matter. -/
theorem C159_named (q : Nat) (cd : List Nat) (args : List LArg) :
    named q cd args = make q (lastB args 0) (lastG args []) (lastC args cd) := by
  obtain ⟨h1, h2, h3⟩ := unroll_eq args { cdims := cd }
  simp only [named, h1, h2, h3]

example : named 100 [4, 5] [.grid [3], .fill 1, .batch 2] = make 100 2 [3] [4, 5] := by decide

/-! ## C160: what does not hold -/

/-- Without a batch argument the batch size is 0, yet it is still an axis: for every grid and cell shape the tensor has no
elements, its labels say it is not batched, and with no grid its cell shape gets a leading 0. -/
theorem C160_default_batch_fails (q : Nat) (g c : List Nat) :
    asize (named q c [.grid g]).v.dims = 0 ∧ (named q c [.grid g]).lab.batched = false ∧
      (named q c [.grid g]).v.dims = 0 :: (g ++ c) ∧ (named q c []).cdims = .ok (0 :: c) := by
  refine ⟨by rw [asize_eq]; simp [named, make, unroll, View.new], rfl, rfl, ?_⟩
  have hp : Parts (named q c []).lab (named q c []).v.dims [] [] (0 :: c) := ⟨rfl, rfl, rfl⟩
  exact hp.cpart

/-- … and the grid it reports is not the one asked for. -/
theorem C160_default_grid_fails : (named 0 [4] [.grid [2, 3]]).gdims = .ok [0, 2] := by decide

/-- `for_each_batch` on a tensor without a batch axis throws, although `nbatch()` is 1. -/
theorem C160_each_batch_fails (x : LT) (h : x.lab.batched = false) : x.getb = .ok 1 ∧ x.eachBatch = .throw := by
  have h1 : x.getb = .ok 1 := by simp [getb, h]
  refine ⟨h1, ?_⟩
  rw [eachBatch, h1]
  simp [batch, h, Res.assrt]

/-- `batch(i)` does not check the position: the first batch after the end is a view of memory the tensor does not own. -/
theorem C160_batch_unchecked_fails :
    (make 0 2 [] [3]).batch 2 = .ok ⟨⟨6, [3], [1]⟩, ⟨false, 0⟩⟩ ∧
      (⟨6, [3], [1]⟩ : View).cell [0] ∉ (make 0 2 [] [3]).v.cells := by decide

/-- `for_each_cell` on a tensor without grid makes no call, although the tensor is one cell. -/
theorem C160_no_grid_fails (v : View) : (⟨v, ⟨false, 0⟩⟩ : LT).eachCell = .ok [] ∧
    (⟨v, ⟨false, 0⟩⟩ : LT).gdims = .ok [] := by
  have hp : Parts ⟨false, 0⟩ v.dims [] [] v.dims := ⟨rfl, rfl, rfl⟩
  have h := hp.gpart
  refine ⟨?_, h⟩
  simp only [eachCell, gdims, h]
  rfl

/-- `cell(ix)` of a batched tensor throws (its code for that case is unreachable). -/
theorem C160_cell_batched_fails (x : LT) (h : x.lab.batched = true) (ix : List Nat) : x.cell ix = .throw := by
  simp [cell, h, Res.assrt]

/-! ## C161 -/

theorem collect {β γ : Type} (f : β → Res γ) (l : List β) (h : ∀ a ∈ l, ∃ y, f a = .ok y) :
    ∃ r, l.foldr (fun a acc => do let y ← f a; let r ← acc; Res.ok ((a, y) :: r)) (.ok []) = .ok r ∧
      r.map Prod.fst = l ∧ ∀ p ∈ r, f p.1 = .ok p.2 := by
  induction l with
  | nil => exact ⟨[], rfl, rfl, by simp⟩
  | cons a l ih =>
    obtain ⟨r, h1, h2, h3⟩ := ih fun b hb => h b (List.mem_cons_of_mem _ hb)
    obtain ⟨y, hy⟩ := h a List.mem_cons_self
    refine ⟨(a, y) :: r, ?_, by simp [h2], ?_⟩
    · rw [List.foldr_cons, hy, h1]; rfl
    · intro p hp
      rcases List.mem_cons.1 hp with rfl | hp
      · exact hy
      · exact h3 p hp

/-- `batch(i)`: the elements whose first index is `i`, labelled as not batched. -/
theorem C161_batch (x : LT) (b : Nat) (D : List Nat) (hwf : x.v.WF) (hb : x.lab.batched = true) (hd : x.v.dims = b :: D)
    (i : Nat) (hi : i < b) :
    ∃ y, x.batch i = .ok y ∧ y.v.dims = D ∧ y.lab = ⟨false, x.lab.narray⟩ ∧ Relabels y.v x.v (i :: ·) := by
  obtain ⟨⟨off, dims, strides⟩, lab⟩ := x
  simp only [View.WF] at hwf hb hd ⊢
  subst hd
  obtain ⟨s, S, rfl⟩ : ∃ s S, strides = s :: S := by
    cases strides with
    | nil => simp at hwf
    | cons s S => exact ⟨s, S, rfl⟩
  have e1 : gvChunk (b :: D) 1 (-1) = .ok D := chunk_drop [b] D
  have e2 : gvChunk (s :: S) 1 (-1) = .ok S := chunk_drop [s] S
  refine ⟨⟨⟨off + s * i, D, S⟩, ⟨false, lab.narray⟩⟩, ?_, rfl, rfl, by simpa [View.WF] using hwf, ?_⟩
  · simp only [batch, hb, e1, e2]
    rfl
  · intro ix hix
    refine ⟨inRange_cons.2 ⟨hi, hix⟩, ?_⟩
    simp [View.cell, Nat.add_assoc]

/-- `for_each_batch`: each batch once, in order. -/
theorem C161_each_batch (x : LT) (b : Nat) (D : List Nat) (hwf : x.v.WF) (hb : x.lab.batched = true)
    (hd : x.v.dims = b :: D) :
    x.getb = .ok b ∧
      ∃ r, x.eachBatch = .ok r ∧ r.map Prod.fst = List.range b ∧ ∀ p ∈ r, x.batch p.1 = .ok p.2 := by
  have h1 : x.getb = .ok b := by simp [getb, hb, hd, Res.get]
  refine ⟨h1, ?_⟩
  rw [eachBatch, h1]
  exact collect x.batch (List.range b) fun i hi =>
    let ⟨y, hy, _⟩ := C161_batch x b D hwf hb hd i (List.mem_range.1 hi); ⟨y, hy⟩

example : (make 10 2 [3] [4]).batch 1 = .ok ⟨⟨22, [3, 4], [4, 1]⟩, ⟨false, 1⟩⟩ := by decide
example : (make 10 2 [] [3]).eachBatch = .ok [(0, ⟨⟨10, [3], [1]⟩, ⟨false, 0⟩⟩), (1, ⟨⟨13, [3], [1]⟩, ⟨false, 0⟩⟩)] := by
  decide

/-- The strides split like the dims. -/
theorem strides_parts {x : LT} {bd gd cd : List Nat} (hwf : x.v.WF) (hp : Parts x.lab x.v.dims bd gd cd) :
    ∃ bs gs cs, Parts x.lab x.v.strides bs gs cs ∧ bs.length = bd.length ∧ gs.length = gd.length ∧
      cs.length = cd.length := by
  obtain ⟨h1, h2, h3⟩ := hp
  have hl : x.v.strides.length = bd.length + gd.length + cd.length := by
    rw [show x.v.strides.length = x.v.dims.length from hwf, h1]; simp [Nat.add_assoc]
  obtain ⟨bs, gs, cs, hq⟩ := Parts.make (l := x.lab) (x := x.v.strides) (by omega) (by omega)
  refine ⟨bs, gs, cs, hq, ?_, ?_, ?_⟩
  · have := hq.2.1; omega
  · have := hq.2.2; omega
  · have := hq.2.1; have := hq.2.2
    have := hq.1 ▸ hl
    simp only [List.length_append] at this
    omega

/-- `cell(ix)` of a tensor without batch: the elements at grid position `ix`. -/
theorem C161_cell (x : LT) (gd cd : List Nat) (hwf : x.v.WF) (hb : x.lab.batched = false)
    (hp : Parts x.lab x.v.dims [] gd cd) (ix : List Nat) (hi : InRange ix gd) :
    ∃ y, x.cell ix = .ok y ∧ y.v.dims = cd ∧ y.lab = ⟨false, 0⟩ ∧ Relabels y.v x.v (ix ++ ·) := by
  obtain ⟨bs, gs, cs, hq, l1, l2, l3⟩ := strides_parts hwf hp
  obtain rfl : bs = [] := List.length_eq_zero_iff.1 (by simpa using l1)
  have hl : (ix.length : Int) = x.lab.narray := by rw [hi.length, hp.2.2]
  refine ⟨⟨⟨x.v.off + dot gs ix, cd, cs⟩, ⟨false, 0⟩⟩, ?_, rfl, rfl, l3, ?_⟩
  · have ho := offs_eq gs ix (by rw [l2, hi.length])
    simp only [cell, cdims, hb, hl, hp.cpart, hq.gpart, hq.cpart, ho, Labels.setNgrid, Res.ok_bind, Res.assrt_true,
      decide_true, Bool.not_false]
  · intro jx hj
    rw [hp.1]
    refine ⟨(inRange_append hi.length).2 ⟨hi, hj⟩, ?_⟩
    simp only [View.cell, hq.1, List.nil_append]
    rw [dot_append _ _ _ _ (by rw [l2, hi.length]), Nat.add_assoc]

/-- `cell(b,ix)` of a batched tensor: the elements of batch `b` at grid position `ix`. -/
theorem C161_cell_at (x : LT) (B : Nat) (gd cd : List Nat) (hwf : x.v.WF) (hb : x.lab.batched = true)
    (hp : Parts x.lab x.v.dims [B] gd cd) (b : Nat) (hlt : b < B) (ix : List Nat) (hi : InRange ix gd) :
    ∃ y, x.cellAt b ix = .ok y ∧ y.v.dims = cd ∧ y.lab = ⟨false, 0⟩ ∧ Relabels y.v x.v (b :: ix ++ ·) := by
  obtain ⟨bs, gs, cs, hq, l1, l2, l3⟩ := strides_parts hwf hp
  obtain ⟨s, rfl⟩ := hq.batched hb
  have hl : (ix.length : Int) = x.lab.narray := by rw [hi.length, hp.2.2]
  have h1 : x.getb = .ok B := by simp [getb, hb, hp.1, Res.get]
  have h2 : Res.get x.v.strides 0 = .ok s := by simp [hq.1, Res.get]
  refine ⟨⟨⟨x.v.off + s * b + dot gs ix, cd, cs⟩, ⟨false, 0⟩⟩, ?_, rfl, rfl, l3, ?_⟩
  · have ho := offs_eq gs ix (by rw [l2, hi.length])
    simp only [cellAt, cdims, hb, hl, h1, h2, hp.cpart, hq.gpart, hq.cpart, ho,
      Labels.setNgrid, Labels.setBatched, Res.ok_bind, Res.assrt_true, hlt, decide_true]
  · intro jx hj
    rw [hp.1]
    refine ⟨(inRange_append (by simp [hi.length])).2 ⟨inRange_cons.2 ⟨hlt, hi⟩, hj⟩, ?_⟩
    simp only [View.cell, hq.1, List.singleton_append]
    rw [dot_append _ _ _ _ (by simp [l2, hi.length]), dot_cons]
    simp only [Nat.add_assoc]

/-- `batched_cell(ix)`: all batches at grid position `ix`; the batch axis stays. -/
theorem C161_batched_cell (x : LT) (bd gd cd : List Nat) (hwf : x.v.WF) (hp : Parts x.lab x.v.dims bd gd cd)
    (ix : List Nat) (hi : InRange ix gd) :
    ∃ y, x.batchedCell ix = .ok y ∧ y.v.dims = bd ++ cd ∧ y.lab = ⟨x.lab.batched, 0⟩ ∧
      Relabels y.v x.v (fun jx => jx.take bd.length ++ ix ++ jx.drop bd.length) := by
  obtain ⟨bs, gs, cs, hq, l1, l2, l3⟩ := strides_parts hwf hp
  have hl : (ix.length : Int) = x.lab.narray := by rw [hi.length, hp.2.2]
  refine ⟨⟨⟨x.v.off + dot gs ix, bd ++ cd, bs ++ cs⟩, ⟨x.lab.batched, 0⟩⟩, ?_, rfl, rfl, by simp [View.WF, l1, l3], ?_⟩
  · have ho := offs_eq gs ix (by rw [l2, hi.length])
    simp only [batchedCell, bcdims, hl, hp.bcpart, hq.gpart, hq.bcpart, ho, Labels.setNgrid, Res.ok_bind, Res.assrt_true,
      decide_true]
  · intro jx hj
    obtain ⟨a, c, rfl, ha, hA, hC⟩ := inRange_split2 hj
    simp only [← ha, List.take_left, List.drop_left]
    rw [hp.1]
    refine ⟨(inRange_append (by simp [ha, hi.length])).2 ⟨(inRange_append ha).2 ⟨hA, hi⟩, hC⟩, ?_⟩
    simp only [View.cell, hq.1]
    rw [dot_append (bs ++ gs) cs (a ++ ix) c (by simp [l1, l2, ha, hi.length]), dot_append bs gs a ix (by omega),
      dot_append bs cs a c (by omega)]
    omega

/-- A wrong number of grid indices is refused. -/
theorem C161_refuses (x : LT) (ix : List Nat) (h : (ix.length : Int) ≠ x.lab.narray) (b B : Nat)
    (hB : x.getb = .ok B) : x.cell ix = .throw ∧ x.cellAt b ix = .throw ∧ x.batchedCell ix = .throw := by
  refine ⟨?_, ?_, ?_⟩
  · cases hb : x.lab.batched <;> simp [cell, hb, h, Res.assrt]
  · by_cases hl : b < B <;> cases hb : x.lab.batched <;> simp [cellAt, hB, hb, h, hl, Res.assrt]
  · simp [batchedCell, h, Res.assrt]

/-- `for_each_cell` without batch, with a grid: every grid position once, in row-major order, with its cell. -/
theorem C161_each_cell (x : LT) (gd cd : List Nat) (hwf : x.v.WF) (hb : x.lab.batched = false)
    (hp : Parts x.lab x.v.dims [] gd cd) (hg : gd ≠ []) :
    ∃ r, x.eachCell = .ok r ∧ r.map Prod.fst = allIndices gd ∧ ∀ p ∈ r, x.cell p.1 = .ok p.2 := by
  simp only [eachCell, gdims, hb, hp.gpart, Res.ok_bind, foreachIndex_eq hg, Bool.not_false, Res.assrt_true]
  exact collect x.cell (allIndices gd) fun ix hi =>
    let ⟨y, hy, _⟩ := C161_cell x gd cd hwf hb hp ix (mem_allIndices.1 hi); ⟨y, hy⟩

/-- `for_each_cell` with batch and grid: every batch and grid position once, in order, with its cell. -/
theorem C161_each_batch_cell (x : LT) (B : Nat) (gd cd : List Nat) (hwf : x.v.WF) (hb : x.lab.batched = true)
    (hp : Parts x.lab x.v.dims [B] gd cd) (hg : gd ≠ []) :
    ∃ r, x.eachBCell = .ok r ∧
      r.map (fun p => (p.1, p.2.1)) = (List.range B).flatMap (fun b => (allIndices gd).map fun ix => (b, ix)) ∧
      ∀ p ∈ r, x.cellAt p.1 p.2.1 = .ok p.2.2 := by
  have h1 : x.getb = .ok B := by simp [getb, hb, hp.1, Res.get]
  simp only [eachBCell, gdims, hb, h1, hp.gpart, Res.ok_bind, foreachIndex_eq hg, Res.assrt_true]
  have hin : ∀ b, b < B → ∀ l : List (List Nat), (∀ ix ∈ l, InRange ix gd) →
      ∃ c, l.foldr (fun ix acc => do let y ← x.cellAt b ix; let r ← acc; Res.ok ((b, ix, y) :: r)) (.ok []) = .ok c ∧
        c.map (fun p => (p.1, p.2.1)) = l.map (fun ix => (b, ix)) ∧ ∀ p ∈ c, x.cellAt p.1 p.2.1 = .ok p.2.2 := by
    intro b hlt l
    induction l with
    | nil => intro _; exact ⟨[], rfl, rfl, by simp⟩
    | cons ix l ih =>
      intro hl
      obtain ⟨c, g1, g2, g3⟩ := ih fun jx hj => hl jx (List.mem_cons_of_mem _ hj)
      obtain ⟨y, hy, -⟩ := C161_cell_at x B gd cd hwf hb hp b hlt ix (hl ix List.mem_cons_self)
      refine ⟨(b, ix, y) :: c, ?_, by simp [g2], ?_⟩
      · rw [List.foldr_cons, hy, g1]; rfl
      · intro p hp
        rcases List.mem_cons.1 hp with rfl | hp
        · exact hy
        · exact g3 p hp
  have hout : ∀ l : List Nat, (∀ b ∈ l, b < B) →
      ∃ r, l.foldr (fun b acc => do
          let c ← (allIndices gd).foldr (fun ix acc => do let y ← x.cellAt b ix; let r ← acc; Res.ok ((b, ix, y) :: r)) (.ok [])
          let r ← acc
          Res.ok (c ++ r)) (.ok []) = .ok r ∧
        r.map (fun p => (p.1, p.2.1)) = l.flatMap (fun b => (allIndices gd).map fun ix => (b, ix)) ∧
        ∀ p ∈ r, x.cellAt p.1 p.2.1 = .ok p.2.2 := by
    intro l
    induction l with
    | nil => intro _; exact ⟨[], rfl, rfl, by simp⟩
    | cons b l ih =>
      intro hl
      obtain ⟨r, g1, g2, g3⟩ := ih fun c hc => hl c (List.mem_cons_of_mem _ hc)
      obtain ⟨c, k1, k2, k3⟩ := hin b (hl b List.mem_cons_self) (allIndices gd) fun ix hi => mem_allIndices.1 hi
      refine ⟨c ++ r, ?_, by simp [g2, k2], ?_⟩
      · rw [List.foldr_cons, k1, g1]; rfl
      · intro p hp
        rcases List.mem_append.1 hp with hp | hp
        · exact k3 p hp
        · exact g3 p hp
  exact hout (List.range B) fun b hb => List.mem_range.1 hb

example : (⟨⟨0, [2, 3, 4], [12, 4, 1]⟩, ⟨false, 2⟩⟩ : LT).cell [1, 2] = .ok ⟨⟨20, [4], [1]⟩, ⟨false, 0⟩⟩ ∧
    (make 0 2 [3] [4]).cellAt 1 [2] = .ok ⟨⟨20, [4], [1]⟩, ⟨false, 0⟩⟩ ∧
    (make 0 2 [3] [4]).batchedCell [2] = .ok ⟨⟨8, [2, 4], [12, 1]⟩, ⟨true, 0⟩⟩ ∧
    ((make 0 2 [3] [4]).eachBCell.bind fun r => .ok (r.map fun p => (p.1, p.2.1, p.2.2.v.off))) =
      .ok [(0, [0], 0), (0, [1], 4), (0, [2], 8), (1, [0], 12), (1, [1], 16), (1, [2], 20)] ∧
    Parts (make 0 2 [3] [4]).lab (make 0 2 [3] [4]).v.dims [2] [3] [4] := by
  refine ⟨by decide, by decide, by decide, by decide, rfl, rfl, rfl⟩

/-! ## C162 -/

/-- The strides of consecutive axes `D` walk in steps of `t` through the row-major order of `D`. -/
def Steps (D S : List Nat) (t : Nat) : Prop := S = (rmStrides D).map (· * t)

instance (D S : List Nat) (t : Nat) : Decidable (Steps D S t) := inferInstanceAs (Decidable (_ = _))

theorem dot_map_mul (S ix : List Nat) (t : Nat) : dot (S.map (· * t)) ix = dot S ix * t := by
  induction S generalizing ix with
  | nil => simp
  | cons s S ih =>
    cases ix with
    | nil => simp
    | cons i ix => rw [List.map_cons, dot_cons, dot_cons, ih]; ring

theorem Steps.dot {D S : List Nat} {t : Nat} (h : Steps D S t) {ix : List Nat} (hi : ix.length = D.length) :
    dot S ix = position D ix * t := by
  rw [h, dot_map_mul, dot_rmStrides _ _ hi]

theorem Steps.length {D S : List Nat} {t : Nat} (h : Steps D S t) : S.length = D.length := by
  rw [h, List.length_map, rmStrides_length]

theorem rmStrides_app (A B : List Nat) : rmStrides (A ++ B) = (rmStrides A).map (· * B.prod) ++ rmStrides B := by
  induction A with
  | nil => simp
  | cons a A ih => rw [List.cons_append, rmStrides_cons, ih, rmStrides_cons]; simp

/-- A tensor in row-major order walks its leading axes in steps of the size of the rest. -/
theorem steps_rm (A B : List Nat) : Steps A ((rmStrides (A ++ B)).take A.length) B.prod := by
  rw [rmStrides_app, Steps]
  have h : ((rmStrides A).map (· * B.prod)).length = A.length := by rw [List.length_map, rmStrides_length]
  rw [← h, List.take_left]

theorem last_stride (D : List Nat) (hD : D ≠ []) : (rmStrides D)[D.length - 1]? = some 1 := by
  obtain ⟨D, d, rfl⟩ : ∃ E d, D = E ++ [d] := ⟨_, _, (List.dropLast_append_getLast hD).symm⟩
  rw [rmStrides_app, List.getElem?_append_right (by simp)]
  simp [rmStrides_cons]

theorem nbg_eq {x : LT} {bd gd cd : List Nat} (hp : Parts x.lab x.v.dims bd gd cd) :
    x.nbg = ((bd ++ gd).length : Nat) := by
  have := hp.2.1; have := hp.2.2
  simp only [nbg, List.length_append]; omega

theorem total_eq {x : LT} {bd gd cd bs gs cs : List Nat} {t : Nat} (hp : Parts x.lab x.v.dims bd gd cd)
    (hq : Parts x.lab x.v.strides bs gs cs) (hs : Steps (bd ++ gd) (bs ++ gs) t) (ht : bd ++ gd ≠ [] → 0 < t) :
    x.total = .ok (bd ++ gd).prod ∧ x.minG = .ok (if bd ++ gd = [] then 0 else t) := by
  have hn := nbg_eq hp
  generalize hD : bd ++ gd = D at *
  have hd : x.v.dims = D ++ cd := by rw [hp.1, hD]
  have hst : x.v.strides = (rmStrides D).map (· * t) ++ cs := by rw [hq.1, hs]
  by_cases h0 : D = []
  · subst h0
    simp only [List.length_nil, Nat.cast_zero] at hn
    simp [total, minG, hn]
  · have hpos : 0 < D.length := List.length_pos_iff.2 h0
    have hne : ¬ x.nbg = 0 := by rw [hn]; omega
    have htn : (x.nbg - 1).toNat = D.length - 1 := by rw [hn]; omega
    have hlast : Res.get x.v.strides (D.length - 1) = .ok t := by
      rw [Res.get, hst, List.getElem?_append_left (by simp; omega), List.getElem?_map, last_stride D h0]
      simp
    have ht0 := ht h0
    refine ⟨?_, by rw [minG, if_neg hne, htn, hlast, if_neg h0]⟩
    obtain ⟨d, E, rfl⟩ := List.exists_cons_of_ne_nil h0
    have h1 : Res.get x.v.dims 0 = .ok d := by rw [hd]; rfl
    have h2 : Res.get x.v.strides 0 = .ok (E.prod * t) := by rw [hst, rmStrides_cons]; rfl
    rw [total, if_neg hne, htn, h1, h2, hlast]
    simp only [Res.ok_bind]
    have : Res.need (decide (t ≠ 0)) = .ok () := by simp [Res.need]; omega
    rw [this, Res.ok_bind]
    congr 1
    rw [List.prod_cons, ← Nat.mul_assoc, Nat.mul_div_cancel _ ht0]

theorem cdim_eq {x : LT} {bd gd A B : List Nat} {n : Nat} (hp : Parts x.lab x.v.dims bd gd (A ++ n :: B)) :
    x.cdim A.length = .ok n := by
  have hn := nbg_eq hp
  have hd : x.v.dims = (bd ++ gd ++ A) ++ n :: B := by rw [hp.1]; simp
  rw [cdim, hn, hd]
  have : (((bd ++ gd).length : Int) + (A.length : Int)).toNat = (bd ++ gd ++ A).length := by
    rw [List.length_append (as := bd ++ gd)]; omega
  rw [this, get_split]
  have : decide ((A.length : Int) + ((bd ++ gd).length : Int) < ((bd ++ gd ++ A ++ n :: B).length : Int)) = true := by
    simp only [decide_eq_true_eq, List.length_append, List.length_cons]; omega
  rw [this]; rfl

theorem cstride_eq {x : LT} {bd gd cd bs gs A B : List Nat} {n : Nat} (hwf : x.v.WF)
    (hp : Parts x.lab x.v.dims bd gd cd) (hq : Parts x.lab x.v.strides bs gs (A ++ n :: B)) :
    x.cstride A.length = .ok n := by
  have hn := nbg_eq hp
  have hd : x.v.strides = (bs ++ gs ++ A) ++ n :: B := by rw [hq.1]; simp
  have hl : (bs ++ gs).length = (bd ++ gd).length := by
    have := hp.2.1; have := hp.2.2; have := hq.2.1; have := hq.2.2
    simp only [List.length_append]; omega
  rw [cstride, hn, ← show x.v.strides.length = x.v.dims.length from hwf, hd, ← hl]
  have : (((bs ++ gs).length : Int) + (A.length : Int)).toNat = (bs ++ gs ++ A).length := by
    rw [List.length_append (as := bs ++ gs)]; omega
  rw [this, get_split]
  have : decide ((A.length : Int) + ((bs ++ gs).length : Int) < ((bs ++ gs ++ A ++ n :: B).length : Int)) = true := by
    simp only [decide_eq_true_eq, List.length_append, List.length_cons]; omega
  rw [this]; rfl

theorem ncdims_eq {x : LT} {bd gd cd : List Nat} (hp : Parts x.lab x.v.dims bd gd cd) : x.ncdims = cd.length := by
  have := hp.2.1; have := hp.2.2
  rw [ncdims, hp.1]
  simp only [List.length_append]; omega

/-- `batch_grid_fused_view2`: when batch and grid axes walk in equal steps, row number `p` of the matrix is the cell at
the batch and grid position whose row-major number is `p`, and all are there. -/
theorem C162_fused2 (x : LT) (bd gd bs gs cs : List Nat) (n t : Nat) (hwf : x.v.WF) (hp : Parts x.lab x.v.dims bd gd [n])
    (hq : Parts x.lab x.v.strides bs gs cs) (hs : Steps (bd ++ gd) (bs ++ gs) t) (ht : 0 < t) :
    ∃ r, x.fused2 = .ok r ∧ r.n0 = (bd ++ gd).prod ∧ r.n1 = n ∧
      ∀ ix j, InRange ix (bd ++ gd) → j < n → r.cell (position (bd ++ gd) ix) j = x.v.cell (ix ++ [j]) := by
  obtain ⟨h1, h2⟩ := total_eq hp hq hs fun _ => ht
  have hl : cs.length = 1 := by
    have := hp.2.1; have := hp.2.2; have := hq.2.1; have := hq.2.2
    have hw : x.v.strides.length = x.v.dims.length := hwf
    rw [hp.1, hq.1] at hw
    simp only [List.length_append, List.length_cons, List.length_nil] at hw; omega
  obtain ⟨s, rfl⟩ := List.length_eq_one_iff.1 hl
  refine ⟨⟨x.v.off, (bd ++ gd).prod, n, if bd ++ gd = [] then 0 else t, s⟩, ?_, rfl, rfl, ?_⟩
  · have k1 := cdim_eq (A := []) (B := []) hp
    have k2 := cstride_eq (A := []) (B := []) hwf hp hq
    simp only [List.length_nil] at k1 k2
    rw [fused2, ncdims_eq hp, h1, h2, k1, k2]
    rfl
  · intro ix j hi hj
    simp only [RV2.cell, View.cell, hq.1]
    rw [dot_append _ _ _ _ (by rw [hs.length, hi.length]), hs.dot hi.length]
    by_cases h0 : bd ++ gd = []
    · rw [if_pos h0, h0]
      simp [position]
    · rw [if_neg h0]
      simp [Nat.mul_comm]

/-- `batch_grid_fused_view3`: the same for cells that are matrices. -/
theorem C162_fused3 (x : LT) (bd gd bs gs cs : List Nat) (n k t : Nat) (hwf : x.v.WF)
    (hp : Parts x.lab x.v.dims bd gd [n, k]) (hq : Parts x.lab x.v.strides bs gs cs)
    (hs : Steps (bd ++ gd) (bs ++ gs) t) (ht : 0 < t) :
    ∃ r, x.fused3 = .ok r ∧ r.dims = [(bd ++ gd).prod, n, k] ∧
      ∀ ix i j, InRange ix (bd ++ gd) → i < n → j < k → r.cell [position (bd ++ gd) ix, i, j] = x.v.cell (ix ++ [i, j]) := by
  obtain ⟨h1, h2⟩ := total_eq hp hq hs fun _ => ht
  have hl : cs.length = 2 := by
    have := hp.2.1; have := hp.2.2; have := hq.2.1; have := hq.2.2
    have hw : x.v.strides.length = x.v.dims.length := hwf
    rw [hp.1, hq.1] at hw
    simp only [List.length_append, List.length_cons, List.length_nil] at hw; omega
  obtain ⟨s, u, rfl⟩ := List.length_eq_two.1 hl
  refine ⟨⟨x.v.off, [(bd ++ gd).prod, n, k], [if bd ++ gd = [] then 0 else t, s, u]⟩, ?_, rfl, ?_⟩
  · have k1 := cdim_eq (A := []) (B := [k]) hp
    have k2 := cstride_eq (A := []) (B := [u]) hwf hp hq
    have k3 := cdim_eq (A := [n]) (B := []) hp
    have k4 := cstride_eq (A := [s]) (B := []) hwf hp hq
    simp only [List.length_nil, List.length_cons, Nat.zero_add] at k1 k2 k3 k4
    rw [fused3, ncdims_eq hp, h1, h2, k1, k2, k3, k4]
    rfl
  · intro ix i j hi _ _
    simp only [View.cell, hq.1]
    rw [dot_append _ _ _ _ (by rw [hs.length, hi.length]), hs.dot hi.length]
    by_cases h0 : bd ++ gd = []
    · rw [if_pos h0, h0]
      simp [position]
    · rw [if_neg h0]
      simp [Nat.mul_comm]

/-- The condition holds for every tensor made row-major with nonempty cells. -/
theorem C162_made (q b : Nat) (g : List Nat) (n : Nat) (hb : b ≠ 0) (hn : 0 < n) :
    ∃ r, (make q b g [n]).fused2 = .ok r ∧ r.n0 = (b :: g).prod ∧ r.n1 = n ∧
      ∀ ix j, InRange ix (b :: g) → j < n → r.cell (position (b :: g) ix) j = (make q b g [n]).v.cell (ix ++ [j]) := by
  have hp : Parts (make q b g [n]).lab (make q b g [n]).v.dims [b] g [n] := by
    refine ⟨rfl, ?_, rfl⟩
    simp [make, Labels.nb, hb]
  have hwf : (make q b g [n]).v.WF := by simp [make, View.new, View.WF]
  obtain ⟨bs, gs, cs, hq, l1, l2, l3⟩ := strides_parts hwf hp
  refine C162_fused2 (make q b g [n]) [b] g bs gs cs n n hwf hp hq ?_ hn
  have h := steps_rm (b :: g) [n]
  have e : (rmStrides (b :: g ++ [n])).take (b :: g).length = bs ++ gs := by
    have : rmStrides (b :: g ++ [n]) = (bs ++ gs) ++ cs := hq.1
    rw [this, List.take_left']
    simp at l1; simp [l1, l2]; omega
  rw [e] at h
  simpa using h

example : (make 10 2 [3] [4]).fused2 = .ok ⟨10, 6, 4, 4, 1⟩ ∧
    Steps [2, 3] [12, 4] 4 ∧ Parts (make 10 2 [3] [4]).lab (make 10 2 [3] [4]).v.strides [12] [4] [1] := by
  refine ⟨by decide, by decide, rfl, rfl, rfl⟩

/-! ## C163 -/

/-- Every row number is the position of an index. -/
theorem exists_position (D : List Nat) (p : Nat) (hp : p < D.prod) : ∃ ix, InRange ix D ∧ position D ix = p := by
  induction D generalizing p with
  | nil => exact ⟨[], List.Forall₂.nil, by simp at hp; simp [position, hp]⟩
  | cons d D ih =>
    rw [List.prod_cons] at hp
    have h0 : 0 < D.prod := by
      rcases Nat.eq_zero_or_pos D.prod with h | h
      · rw [h] at hp; simp at hp
      · exact h
    obtain ⟨ix, h1, h2⟩ := ih (p % D.prod) (Nat.mod_lt _ h0)
    refine ⟨p / D.prod :: ix, inRange_cons.2 ⟨(Nat.div_lt_iff_lt_mul h0).2 hp, h1⟩, ?_⟩
    rw [position, h2, Nat.mul_comm]
    exact Nat.div_add_mod p D.prod

/-- The matrix view `mult` takes of a tensor: one row per batch, grid and cell row. -/
theorem mult_view {z : LT} {bd gd bs gs : List Nat} {a b s u : Nat} (hwf : z.v.WF)
    (hp : Parts z.lab z.v.dims bd gd [a, b]) (hq : Parts z.lab z.v.strides bs gs [s, u])
    (hs : Steps (bd ++ gd ++ [a]) (bs ++ gs ++ [s]) s) (h : bd ++ gd ≠ [] → 0 < a * s) :
    z.total = .ok (bd ++ gd).prod ∧ z.cdim 0 = .ok a ∧ z.cdim 1 = .ok b ∧ z.cstride 0 = .ok s ∧ z.cstride 1 = .ok u ∧
      ∀ ix i j, InRange ix (bd ++ gd) → i < a →
        RV2.cell ⟨z.v.off, (bd ++ gd).prod * a, b, s, u⟩ (position (bd ++ gd) ix * a + i) j = z.v.cell (ix ++ [i, j]) := by
  have hs' : Steps (bd ++ gd) (bs ++ gs) (a * s) := by
    rw [Steps, rmStrides_app] at hs
    rw [Steps]
    have hl : (bs ++ gs).length = ((rmStrides (bd ++ gd)).map (· * (a * s))).length := by
      rw [List.length_map, rmStrides_length]
      have := hp.2.1; have := hp.2.2; have := hq.2.1; have := hq.2.2
      simp only [List.length_append]; omega
    have e : bs ++ gs ++ [s] = (rmStrides (bd ++ gd)).map (· * (a * s)) ++ [s] := by
      rw [hs]; simp [rmStrides_cons, Nat.mul_assoc]
    exact List.append_inj_left e hl
  have k1 := cdim_eq (A := []) (B := [b]) hp
  have k2 := cstride_eq (A := []) (B := [u]) hwf hp hq
  have k3 := cdim_eq (A := [a]) (B := []) hp
  have k4 := cstride_eq (A := [s]) (B := []) hwf hp hq
  refine ⟨(total_eq hp hq hs' h).1, k1, k3, k2, k4, ?_⟩
  intro ix i j hi _
  simp only [RV2.cell, View.cell, hq.1]
  rw [dot_append _ _ _ _ (by rw [hs'.length, hi.length]), hs'.dot hi.length]
  simp
  ring

/-- `mult(x,y)`: every cell of `x` (at each batch and grid position) is multiplied with the matrix `y`; the result has the
labels of `x` and is new memory. -/
theorem C163_mult [NonUnitalNonAssocSemiring α] (q : Nat) (x : LT) (y : View) (bd gd bs gs : List Nat) (a k n s u : Nat)
    (hwf : x.v.WF) (hp : Parts x.lab x.v.dims bd gd [a, k]) (hq : Parts x.lab x.v.strides bs gs [s, u])
    (hs : Steps (bd ++ gd ++ [a]) (bs ++ gs ++ [s]) s) (ha : 0 < a) (hs0 : 0 < s) (hn : 0 < n)
    (hy : y.dims = [k, n]) (hyw : y.WF) (m : Buf α) (X : List Nat → α) (Y : Nat → Nat → α)
    (hX : ∀ ix, InRange ix x.v.dims → x.v.val m ix = some (X ix) ∧
      (x.v.cell ix < q ∨ q + ((bd ++ gd).prod * a) * n ≤ x.v.cell ix))
    (hY : ∀ i j, i < k → j < n → y.val m [i, j] = some (Y i j) ∧
      (y.cell [i, j] < q ∨ q + ((bd ++ gd).prod * a) * n ≤ y.cell [i, j])) :
    ∃ m', mult q x ⟨y, ⟨false, 0⟩⟩ m = .ok (⟨View.new q (bd ++ gd ++ [a, n]), x.lab⟩, m') ∧
      View.Made q (bd ++ gd ++ [a, n])
        (fun ix => ((List.range k).map fun i => X (ix.dropLast ++ [i]) * Y i (ix.getLast?.getD 0)).sum) m m' := by
  generalize hD : bd ++ gd = D at *
  have hw : x.v.dims = D ++ [a, k] := by rw [hp.1, hD]
  have hds : x.v.dims.dropLast ++ [n] = D ++ [a, n] := by
    rw [hw, show D ++ [a, k] = (D ++ [a]) ++ [k] by simp, List.dropLast_concat]; simp
  -- the result
  have hrp : Parts x.lab (View.new q (D ++ [a, n])).dims bd gd [a, n] := by
    refine ⟨?_, hp.2.1, hp.2.2⟩
    rw [hD]; rfl
  have hrw : (View.new q (D ++ [a, n])).WF := by simp [View.new, View.WF]
  obtain ⟨bs', gs', cs', hrq, l1, l2, l3⟩ := strides_parts (x := ⟨View.new q (D ++ [a, n]), x.lab⟩) hrw hrp
  have hl' : (bs' ++ gs').length = ((rmStrides D).map (· * (a * n))).length := by
    rw [List.length_map, rmStrides_length, ← hD, List.length_append, List.length_append, l1, l2]
  have hst : bs' ++ gs' = (rmStrides D).map (· * (a * n)) ∧ cs' = [n, 1] := by
    have e := hrq.1
    have e' : (View.new q (D ++ [a, n])).strides = (rmStrides D).map (· * (a * n)) ++ [n, 1] := by
      show rmStrides (D ++ [a, n]) = _
      rw [rmStrides_app]; simp [rmStrides_cons]
    exact List.append_inj (e.symm.trans e') hl'
  have hcs := hst.2
  subst hcs
  have hrs : Steps (bd ++ gd ++ [a]) (bs' ++ gs' ++ [n]) n := by
    rw [Steps, hD, rmStrides_app, hst.1]; simp [rmStrides_cons, Nat.mul_assoc]
  obtain ⟨r1, r2, r3, r4, r5, r6⟩ := mult_view (z := ⟨View.new q (D ++ [a, n]), x.lab⟩) hrw hrp hrq hrs
    fun _ => Nat.mul_pos ha hn
  obtain ⟨x1, x2, x3, x4, x5, x6⟩ := mult_view hwf hp hq (by rw [hD]; exact hs) fun _ => Nat.mul_pos ha hs0
  rw [hD] at r1 r6 x1 x6
  -- the matrix
  obtain ⟨yoff, yd, ys⟩ := y
  simp only [View.WF] at hyw hy
  subst hy
  obtain ⟨ys0, ys1, rfl⟩ := List.length_eq_two.1 hyw
  have hyp : Parts (⟨false, 0⟩ : Labels) [k, n] [] [] [k, n] := ⟨rfl, rfl, rfl⟩
  have hyq : Parts (⟨false, 0⟩ : Labels) [ys0, ys1] [] [] [ys0, ys1] := ⟨rfl, rfl, rfl⟩
  have y1 : LT.cdim ⟨⟨yoff, [k, n], [ys0, ys1]⟩, ⟨false, 0⟩⟩ 0 = .ok k := rfl
  have y2 : LT.cdim ⟨⟨yoff, [k, n], [ys0, ys1]⟩, ⟨false, 0⟩⟩ 1 = .ok n := rfl
  have y3 : LT.cstride ⟨⟨yoff, [k, n], [ys0, ys1]⟩, ⟨false, 0⟩⟩ 0 = .ok ys0 := rfl
  have y4 : LT.cstride ⟨⟨yoff, [k, n], [ys0, ys1]⟩, ⟨false, 0⟩⟩ 1 = .ok ys1 := rfl
  -- memory
  have hprod : (D ++ [a, n]).prod = D.prod * a * n := by simp [Nat.mul_assoc]
  have hz : ∀ p j, p < D.prod * a → j < n → allocZero m q (asize (D ++ [a, n])) (RV2.cell ⟨q, D.prod * a, n, n, 1⟩ p j) = some 0 := by
    intro p j hp hj
    rw [allocZero, asize_eq, hprod, if_pos]
    simp only [RV2.cell]
    have h1 : n * p + n ≤ n * (D.prod * a) := by
      rw [← Nat.mul_succ]; exact Nat.mul_le_mul_left _ hp
    have h2 : n * (D.prod * a) = D.prod * a * n := Nat.mul_comm _ _
    omega
  have hcell : ∀ p j, p < D.prod * a → j < n → q ≤ RV2.cell ⟨q, D.prod * a, n, n, 1⟩ p j ∧
      RV2.cell ⟨q, D.prod * a, n, n, 1⟩ p j < q + D.prod * a * n := by
    intro p j hp hj
    simp only [RV2.cell]
    have h1 : n * p + n ≤ n * (D.prod * a) := by
      rw [← Nat.mul_succ]; exact Nat.mul_le_mul_left _ hp
    have h2 : n * (D.prod * a) = D.prod * a * n := Nat.mul_comm _ _
    omega
  have hout : ∀ c, (c < q ∨ q + D.prod * a * n ≤ c) → allocZero m q (asize (D ++ [a, n])) c = m c := by
    intro c hc
    rw [allocZero, asize_eq, hprod, if_neg (by omega)]
  have hrow : ∀ p, p < D.prod * a → ∃ ix i, InRange ix D ∧ i < a ∧ position D ix * a + i = p := by
    intro p hp
    obtain ⟨ix, g1, g2⟩ := exists_position D (p / a) ((Nat.div_lt_iff_lt_mul ha).2 hp)
    refine ⟨ix, p % a, g1, Nat.mod_lt _ ha, ?_⟩
    rw [g2, Nat.mul_comm]; exact Nat.div_add_mod p a
  have hxin : ∀ ix i j, InRange ix D → i < a → j < k → InRange (ix ++ [i, j]) x.v.dims := by
    intro ix i j h1 h2 h3
    rw [hw]
    exact (inRange_append h1.length).2 ⟨h1, inRange_cons.2 ⟨h2, inRange_cons.2 ⟨h3, inRange_nil⟩⟩⟩
  obtain ⟨m', g1, g2, g3⟩ := C134_AA (⟨q, D.prod * a, n, n, 1⟩ : RV2) ⟨x.v.off, D.prod * a, k, s, u⟩
    ⟨yoff, k, n, ys0, ys1⟩ rfl rfl rfl
    (by
      intro i hi j hj i' hi' j' hj' e
      simp only [RV2.cell] at e hj hj'
      have e' : n * i + j = n * i' + j' := by omega
      have d1 := congrArg (· / n) e'
      have d2 := congrArg (· % n) e'
      simp only [Nat.mul_add_div hn, Nat.mul_add_mod, Nat.div_eq_of_lt hj, Nat.div_eq_of_lt hj', Nat.mod_eq_of_lt hj,
        Nat.mod_eq_of_lt hj'] at d1 d2
      omega)
    (by
      intro i hi j hj p hp l hl
      obtain ⟨ix, i', h1, h2, rfl⟩ := hrow p hp
      rw [x6 ix i' l h1 h2]
      have := (hX _ (hxin ix i' l h1 h2 hl)).2
      have := hcell i j hi hj
      omega)
    (by
      intro i hi j hj p hp l hl
      have h := (hY p l hp hl).2
      have := hcell i j hi hj
      have e : View.cell ⟨yoff, [k, n], [ys0, ys1]⟩ [p, l] = RV2.cell ⟨yoff, k, n, ys0, ys1⟩ p l := by
        simp [View.cell, RV2.cell]
      rw [e] at h
      omega)
    (allocZero m q (asize (D ++ [a, n]))) (fun _ _ => 0)
    (fun p i => (m (RV2.cell ⟨x.v.off, D.prod * a, k, s, u⟩ p i)).getD 0) Y
    (fun i hi j hj => hz i j hi hj)
    (by
      intro p hp l hl
      obtain ⟨ix, i', h1, h2, rfl⟩ := hrow p hp
      obtain ⟨v1, v2⟩ := hX _ (hxin ix i' l h1 h2 hl)
      simp only [x6 ix i' l h1 h2]
      rw [hout _ v2, show m (x.v.cell (ix ++ [i', l])) = _ from v1]; rfl)
    (by
      intro p hp l hl
      obtain ⟨v1, v2⟩ := hY p l hp hl
      have e : View.cell ⟨yoff, [k, n], [ys0, ys1]⟩ [p, l] = RV2.cell ⟨yoff, k, n, ys0, ys1⟩ p l := by
        simp [View.cell, RV2.cell]
      rw [← e, hout _ v2]; exact v1)
  refine ⟨m', ?_, ?_, ?_⟩
  · have hne : x.v.dims ≠ [] := by rw [hw]; simp
    simp only [mult, hds, r1, r2, r3, r4, r5, x1, x2, x3, x4, x5, y1, y2, y3, y4, Res.ok_bind,
      List.getLast?_cons_cons, List.getLast?_singleton]
    have : Res.need (decide (x.v.dims ≠ [])) = .ok () := by simp [Res.need, hne]
    rw [this, Res.ok_bind, show (View.new q (D ++ [a, n])).off = q from rfl, g1]
    rfl
  · intro ix hix
    obtain ⟨jx, kx, rfl, hj, hJ, hK⟩ := inRange_split2 hix
    obtain ⟨i, kx, rfl⟩ : ∃ i kx', kx = i :: kx' := by
      cases kx with
      | nil => cases hK
      | cons i kx => exact ⟨i, kx, rfl⟩
    obtain ⟨hi, hK⟩ := inRange_cons.1 hK
    obtain ⟨j, kx, rfl⟩ : ∃ i kx', kx = i :: kx' := by
      cases kx with
      | nil => cases hK
      | cons i kx => exact ⟨i, kx, rfl⟩
    obtain ⟨hjn, hK⟩ := inRange_cons.1 hK
    cases hK
    have hlt : position D jx * a + i < D.prod * a := by
      have := position_lt hJ
      calc position D jx * a + i < position D jx * a + a := by omega
        _ = (position D jx + 1) * a := by ring
        _ ≤ D.prod * a := Nat.mul_le_mul_right _ this
    have h := g2 _ hlt _ hjn
    have hr := r6 jx i j hJ hi
    rw [View.val]
    refine (congrArg m' hr).symm.trans (h.trans ?_)
    refine congrArg some ?_
    dsimp only
    rw [zero_add]
    refine congrArg List.sum (List.map_congr_left fun l hl => ?_)
    have hl := List.mem_range.1 hl
    rw [x6 jx i l hJ hi, show m (x.v.cell (jx ++ [i, l])) = _ from (hX _ (hxin jx i l hJ hi hl)).1]
    have e : jx ++ [i, j] = (jx ++ [i]) ++ [j] := by simp
    rw [e, List.dropLast_concat, List.getLast?_concat]
    simp
  · intro c hc
    rw [hprod] at hc
    rw [g3 c, hout c hc]
    intro i hi j hj e
    have := hcell i j hi hj
    omega

example : ((mult 100 (make 0 2 [] [2, 2]) ⟨⟨50, [2, 1], [1, 1]⟩, ⟨false, 0⟩⟩ fun i => some (i : Int)).bind fun p =>
      .ok (p.1, (List.range 4).map fun i => p.2 (100 + i))) =
    .ok (⟨⟨100, [2, 2, 1], [2, 1, 1]⟩, ⟨true, 0⟩⟩, [some 51, some 253, some 455, some 657]) := by decide

example : Steps ([2] ++ [] ++ [2]) ([4] ++ [] ++ [2]) 2 ∧ (make 0 2 [] [2, 2]).v.WF ∧
    Parts (make 0 2 [] [2, 2]).lab (make 0 2 [] [2, 2]).v.strides [4] [] [2, 1] := by
  refine ⟨by decide, by decide, rfl, rfl, rfl⟩

/-! ## C164: what does not hold -/

/-- `batch_grid_regular()` always says yes, and the fused view is taken from the first and last stride alone: for a grid with
its axes exchanged, rows of the view are not cells of the tensor, and their number is wrong. -/
theorem C164_transposed_grid_fails :
    (⟨⟨0, [3, 2, 4], [4, 12, 1]⟩, ⟨false, 2⟩⟩ : LT).fused2 = .ok ⟨0, 1, 4, 12, 1⟩ ∧
      (⟨⟨0, [2, 2, 1], [5, 2, 1]⟩, ⟨false, 2⟩⟩ : LT).fused2 = .ok ⟨0, 5, 1, 2, 1⟩ ∧
      (⟨0, 5, 1, 2, 1⟩ : RV2).cell 4 0 ∉ (⟨0, [2, 2, 1], [5, 2, 1]⟩ : View).cells := by decide

/-- Cells of no elements: the number of rows is computed by a division by zero. -/
theorem C164_empty_cells_fails (q b : Nat) (hb : b ≠ 0) : (make q b [] [0]).fused2 = .ub := by
  simp [fused2, ncdims, total, nbg, make, Labels.nb, hb, View.new, rmStrides, rmStridesFrom, Res.get, Res.need, Res.assrt]

/-- `mult` takes the rows of `x` at steps of the cell's row stride: if cells are transposed (column-major), rows of other
cells are wrong.  Here cell 1 is `[4 6; 5 7]` and is multiplied as `[1 3; 2 4]`. -/
theorem C164_mult_transposed_fails :
    ((mult 100 ⟨⟨0, [2, 2, 2], [4, 1, 2]⟩, ⟨true, 0⟩⟩ ⟨⟨50, [2, 1], [1, 1]⟩, ⟨false, 0⟩⟩ fun i => some (if i < 8 then (i : Int) else 1)).bind
      fun p => .ok ((List.range 4).map fun i => p.2 (100 + i))) = .ok [some 2, some 4, some 6, some 8] ∧
    (⟨0, [2, 2, 2], [4, 1, 2]⟩ : View).cell [1, 0, 0] = 4 ∧ (⟨0, [2, 2, 2], [4, 1, 2]⟩ : View).cell [1, 0, 1] = 6 := by
  decide

/-- `mult` by a matrix without columns divides by zero when there is a batch or grid. -/
theorem C164_mult_empty_fails :
    ((mult 100 (make 0 2 [] [2, 2]) ⟨⟨50, [2, 0], [0, 1]⟩, ⟨false, 0⟩⟩ fun i => some (i : Int)).bind fun _ => .ok ()) = .ub := by
  decide

end LT

namespace View

/-! ## C165 -/

/-- `col(i)`: the elements whose last index is `i`. -/
theorem C165_col (v : View) (D : List Nat) (n i : Nat) (hwf : v.WF) (hd : v.dims = D ++ [n]) (hi : i < n) :
    ∃ w, v.colL i = .ok w ∧ w.dims = D ∧ Relabels w v (· ++ [i]) := by
  obtain ⟨off, dims, strides⟩ := v
  simp only [WF] at hwf hd ⊢
  subst hd
  obtain ⟨S, s, rfl, hS⟩ : ∃ S s, strides = S ++ [s] ∧ S.length = D.length := by
    have hne : strides ≠ [] := by rintro rfl; simp at hwf
    refine ⟨strides.dropLast, strides.getLast hne, (List.dropLast_append_getLast hne).symm, ?_⟩
    rw [List.length_dropLast, hwf]; simp
  have e1 : (D ++ [n]).length - 1 = D.length := by simp
  have e2 : (S ++ [s]).length - 1 = S.length := by simp
  refine ⟨⟨off + s * i, D, S⟩, ?_, rfl, hS, ?_⟩
  · simp only [colL, e1, e2, get_split, Res.ok_bind, chunk_take]
    rw [← hS, chunk_take]
    simp [hi, Res.need, Res.assrt]
  · intro ix hix
    refine ⟨(inRange_append hix.length).2 ⟨hix, inRange_cons.2 ⟨hi, inRange_nil⟩⟩, ?_⟩
    simp only [cell]
    rw [dot_append _ _ _ _ (by rw [hS, hix.length])]
    simp; omega

/-- `cols(i,n)`: the elements whose last index is `i`, …, `i+n-1`. -/
theorem C165_cols (v : View) (D : List Nat) (N i n : Nat) (hwf : v.WF) (hd : v.dims = D ++ [N]) (hi : i + n ≤ N) :
    ∃ w, v.colsL i n = .ok w ∧ w.dims = D ++ [n] ∧ Relabels w v (fun ix => ix.modify D.length (· + i)) := by
  obtain ⟨off, dims, strides⟩ := v
  simp only [WF] at hwf hd ⊢
  subst hd
  obtain ⟨S, s, rfl, hS⟩ : ∃ S s, strides = S ++ [s] ∧ S.length = D.length := by
    have hne : strides ≠ [] := by rintro rfl; simp at hwf
    refine ⟨strides.dropLast, strides.getLast hne, (List.dropLast_append_getLast hne).symm, ?_⟩
    rw [List.length_dropLast, hwf]; simp
  have e1 : (D ++ [N]).length - 1 = D.length := by simp
  have e2 : (S ++ [s]).length - 1 = S.length := by simp
  refine ⟨⟨off + s * i, D ++ [n], S ++ [s]⟩, ?_, rfl, by simp [WF, hS], ?_⟩
  · simp only [colsL, e1, e2, get_split, Res.ok_bind, gvSet_split]
    simp [hi, Res.need, Res.assrt]
  · intro ix hix
    obtain ⟨a, j, b, rfl, ha, hA, hj, hB⟩ := inRange_split hix
    dsimp only
    rw [← ha, modify_split]
    refine ⟨(inRange_append ha).2 ⟨hA, inRange_cons.2 ⟨by omega, hB⟩⟩, ?_⟩
    cases hB
    simp only [cell]
    rw [dot_append S [s] a _ (by rw [hS, ha]), dot_append S [s] a _ (by rw [hS, ha])]
    simp
    ring

/-- A column outside the tensor is refused. -/
theorem C165_col_refuses (v : View) (D : List Nat) (N i n : Nat) (hd : v.dims = D ++ [N]) :
    (N ≤ i → v.colL i = .throw) ∧ (N < i + n → v.colsL i n = .throw) := by
  have e1 : (D ++ [N]).length - 1 = D.length := by simp
  constructor
  · intro h
    have : ¬ i < N := by omega
    simp only [colL, hd, e1, get_split, Res.ok_bind]
    simp [this, Res.assrt]
  · intro h
    have : ¬ i + n ≤ N := by omega
    simp only [colsL, hd, e1, get_split, Res.ok_bind]
    simp [this, Res.assrt]

/-- `unsqueeze(d)` before an existing axis. -/
theorem C165_unsqueeze (v : View) (d : Nat) (hwf : v.WF) (hd : d < v.dims.length) :
    ∃ w, v.unsqueezeL d = .ok w ∧ w.dims = v.dims.take d ++ 1 :: v.dims.drop d ∧ Relabels w v (fun ix => ix.eraseIdx d) := by
  obtain ⟨off, dims, strides⟩ := v
  simp only [WF] at hwf hd ⊢
  obtain ⟨A, n, B, rfl, rfl, hn⟩ := split_at dims d hd
  obtain ⟨S, s, T, rfl, hS, -⟩ := split_at strides A.length (by omega)
  have hT : T.length = B.length := by simp at hwf; omega
  refine ⟨⟨off, A ++ 1 :: (n :: B), S ++ s :: (s :: T)⟩, ?_, by simp, insert_axis off A (n :: B) S (s :: T) 1 s hS (by simp [hT]) (Or.inl rfl)⟩
  simp only [unsqueezeL, gvInsert_split, Res.ok_bind]
  rw [← hS, get_split, Res.ok_bind, gvInsert_split]
  simp [hS, Res.assrt]

example : (⟨5, [2, 3, 4], [12, 4, 1]⟩ : View).colL 2 = .ok ⟨7, [2, 3], [12, 4]⟩ ∧
    (⟨5, [2, 3, 4], [12, 4, 1]⟩ : View).colsL 1 2 = .ok ⟨6, [2, 3, 2], [12, 4, 1]⟩ ∧
    (⟨5, [2, 3, 4], [12, 4, 1]⟩ : View).unsqueezeL 0 = .ok ⟨5, [1, 2, 3, 4], [12, 12, 4, 1]⟩ := by decide

/-! ### diagonals -/

/-- A list without the entries at the positions `R`. -/
def without (R : List Nat) (l : List Nat) : List Nat := (l.zipIdx.filter fun p => !R.contains p.2).map Prod.fst

/-- Entries whose position (counted from `o`) satisfies `p`. -/
def pick (p : Nat → Bool) (o : Nat) (l : List Nat) : List Nat := ((l.zipIdx o).filter fun e => p e.2).map Prod.fst

theorem pick_cons (p : Nat → Bool) (o a : Nat) (l : List Nat) :
    pick p o (a :: l) = if p o then a :: pick p (o + 1) l else pick p (o + 1) l := by
  simp only [pick, List.zipIdx_cons, List.filter_cons]
  split <;> simp_all

@[simp] theorem pick_nil (p : Nat → Bool) (o : Nat) : pick p o [] = [] := rfl

theorem pick_append (p : Nat → Bool) (o : Nat) (l k : List Nat) :
    pick p o (l ++ k) = pick p o l ++ pick p (o + l.length) k := by
  simp [pick, List.zipIdx_append]

theorem pick_all (p : Nat → Bool) (o : Nat) (l : List Nat) (h : ∀ i, o ≤ i → i < o + l.length → p i = true) :
    pick p o l = l := by
  induction l generalizing o with
  | nil => rfl
  | cons a l ih =>
    rw [pick_cons, h o (by omega) (by simp), if_pos rfl, ih]
    intro i h1 h2
    exact h i (by omega) (by simp; omega)

theorem dot_pick (p : Nat → Bool) (o : Nat) (S X : List Nat) (h : S.length = X.length) :
    dot S X = dot (pick p o S) (pick p o X) + dot (pick (fun i => !p i) o S) (pick (fun i => !p i) o X) := by
  induction S generalizing o X with
  | nil => simp
  | cons s S ih =>
    cases X with
    | nil => simp at h
    | cons x X =>
      have := ih (o + 1) X (by simpa using h)
      cases hp : p o <;> simp [pick_cons, hp] <;> omega

theorem pick_length (p : Nat → Bool) (o : Nat) (l k : List Nat) (h : l.length = k.length) :
    (pick p o l).length = (pick p o k).length := by
  induction l generalizing o k with
  | nil =>
    cases k with
    | nil => rfl
    | cons b k => simp at h
  | cons a l ih =>
    cases k with
    | nil => simp at h
    | cons b k =>
      have := ih (o + 1) k (by simpa using h)
      cases hp : p o <;> simp [pick_cons, hp, this]

theorem dot_const (S X : List Nat) (i : Nat) (h : ∀ x ∈ X, x = i) (hl : S.length = X.length) : dot S X = S.sum * i := by
  induction S generalizing X with
  | nil => simp
  | cons s S ih =>
    cases X with
    | nil => simp at hl
    | cons x X =>
      rw [dot_cons, ih X (fun y hy => h y (List.mem_cons_of_mem _ hy)) (by simpa using hl), h x List.mem_cons_self]
      simp; ring

theorem inRange_pick (p : Nat → Bool) (o : Nat) (l d : List Nat) (h : InRange l d) : InRange (pick p o l) (pick p o d) := by
  induction h generalizing o with
  | nil => exact List.Forall₂.nil
  | @cons a b l d h1 h2 ih =>
    rw [pick_cons, pick_cons]
    split
    · exact inRange_cons.2 ⟨h1, ih _⟩
    · exact ih _

/-- Put `y` at the positions satisfying `p` and `i` elsewhere. -/
def fillIn (p : Nat → Bool) (i : Nat) : Nat → List Nat → List Nat → List Nat
  | _, [], _ => []
  | o, _ :: d, y => if p o then y.headD 0 :: fillIn p i (o + 1) d y.tail else i :: fillIn p i (o + 1) d y

theorem fillIn_spec (p : Nat → Bool) (i o : Nat) (d y : List Nat) (h : InRange y (pick p o d))
    (hi : ∀ n ∈ pick (fun k => !p k) o d, i < n) :
    InRange (fillIn p i o d y) d ∧ pick p o (fillIn p i o d y) = y ∧ ∀ x ∈ pick (fun k => !p k) o (fillIn p i o d y), x = i := by
  induction d generalizing o y with
  | nil => cases h; exact ⟨List.Forall₂.nil, rfl, by simp [fillIn]⟩
  | cons n d ih =>
    rw [pick_cons] at h hi
    cases hp : p o with
    | true =>
      simp only [hp, if_true, Bool.not_true, Bool.false_eq_true, if_false] at h hi
      obtain ⟨a, y, rfl⟩ : ∃ a y', y = a :: y' := by
        cases y with
        | nil => cases h
        | cons a y => exact ⟨a, y, rfl⟩
      obtain ⟨h1, h2⟩ := inRange_cons.1 h
      obtain ⟨g1, g2, g3⟩ := ih (o + 1) y h2 hi
      simp only [fillIn, hp, if_true, List.headD_cons, List.tail_cons, pick_cons, Bool.not_true, Bool.false_eq_true, if_false, g2]
      exact ⟨inRange_cons.2 ⟨h1, g1⟩, trivial, g3⟩
    | false =>
      simp only [hp, Bool.false_eq_true, if_false, Bool.not_false, if_true, List.mem_cons, forall_eq_or_imp] at h hi
      obtain ⟨g1, g2, g3⟩ := ih (o + 1) y h hi.2
      simp only [fillIn, hp, Bool.false_eq_true, if_false, pick_cons, Bool.not_false, if_true, List.mem_cons, forall_eq_or_imp]
      exact ⟨inRange_cons.2 ⟨hi.1, g1⟩, g2, trivial, g3⟩

theorem pick_inj (p : Nat → Bool) (i o : Nat) (l k : List Nat) (hl : l.length = k.length) (h : pick p o l = pick p o k)
    (h1 : ∀ x ∈ pick (fun k => !p k) o l, x = i) (h2 : ∀ x ∈ pick (fun k => !p k) o k, x = i) : l = k := by
  induction l generalizing o k with
  | nil =>
    cases k with
    | nil => rfl
    | cons b k => simp at hl
  | cons a l ih =>
    cases k with
    | nil => simp at hl
    | cons b k =>
      rw [pick_cons] at h1 h2
      simp only [pick_cons] at h
      cases hp : p o with
      | true =>
        simp only [hp, if_true, Bool.not_true, Bool.false_eq_true, if_false, List.cons.injEq] at h h1 h2
        rw [h.1, ih (o + 1) k (by simpa using hl) h.2 h1 h2]
      | false =>
        simp only [hp, Bool.false_eq_true, if_false, Bool.not_false, if_true, List.mem_cons, forall_eq_or_imp] at h h1 h2
        rw [h1.1, h2.1, ih (o + 1) k (by simpa using hl) h h1.2 h2.2]

/-- The entries at sorted positions `R`. -/
theorem pick_sorted (R : List Nat) (o : Nat) (l : List Nat) (hs : R.Pairwise (· < ·)) (h : ∀ k ∈ R, o ≤ k ∧ k < o + l.length) :
    pick (fun i => R.contains i) o l = R.map fun k => l.getD (k - o) 0 := by
  induction l generalizing o R with
  | nil =>
    cases R with
    | nil => rfl
    | cons r R => have := h r List.mem_cons_self; simp at this; omega
  | cons a l ih =>
    rw [pick_cons]
    cases R with
    | nil =>
      have := ih [] (o + 1) List.Pairwise.nil (by simp)
      simpa using this
    | cons r R =>
      rw [List.pairwise_cons] at hs
      have hr := h r List.mem_cons_self
      by_cases e : r = o
      · subst e
        have hc : (r :: R).contains r = true := by simp
        rw [if_pos hc]
        have hR : ∀ k ∈ R, r + 1 ≤ k ∧ k < r + 1 + l.length := fun k hk => by
          have := hs.1 k hk; have h2 := (h k (List.mem_cons_of_mem _ hk)).2
          simp only [List.length_cons] at h2; omega
        have e1 := ih R (r + 1) hs.2 hR
        have e2 : pick (fun i => (r :: R).contains i) (r + 1) l = pick (fun i => R.contains i) (r + 1) l := by
          unfold pick
          refine congrArg _ (List.filter_congr fun x hx => ?_)
          have := (List.mem_zipIdx (show (x.1, x.2) ∈ _ from hx)).1
          have hne : ¬ x.2 = r := by omega
          simp [hne]
        rw [e2, e1, List.map_cons]
        simp only [Nat.sub_self, List.getD_cons_zero, List.cons.injEq, true_and]
        refine List.map_congr_left fun k hk => ?_
        have := (hR k hk).1
        rw [show k - r = (k - (r + 1)) + 1 by omega, List.getD_cons_succ]
      · have hc : ¬ (r :: R).contains o = true := by
          simp only [List.contains_eq_mem, decide_eq_true_eq, List.mem_cons, not_or]
          refine ⟨fun h => e h.symm, fun hm => ?_⟩
          have := hs.1 o hm; omega
        rw [if_neg hc]
        have hR : ∀ k ∈ r :: R, o + 1 ≤ k ∧ k < o + 1 + l.length := fun k hk => by
          have h2 := h k hk
          simp at h2
          rcases List.mem_cons.1 hk with rfl | hm
          · omega
          · have := hs.1 k hm; omega
        rw [ih (r :: R) (o + 1) (List.pairwise_cons.2 hs) hR]
        refine List.map_congr_left fun k hk => ?_
        have := (hR k hk).1
        rw [show k - o = (k - (o + 1)) + 1 by omega, List.getD_cons_succ]

theorem pick_none (R : List Nat) (o : Nat) (l : List Nat) (h : ∀ k ∈ R, o + l.length ≤ k) :
    pick (fun i => R.contains i) o l = [] := by
  induction l generalizing o with
  | nil => rfl
  | cons a l ih =>
    have hc : ¬ R.contains o = true := by
      simp only [List.contains_eq_mem, decide_eq_true_eq]
      intro hm
      have := h o hm; simp at this
    rw [pick_cons, if_neg hc, ih]
    intro k hk
    have := h k hk; simp at this; omega

theorem without_split (R A B : List Nat) (n : Nat) (h : ∀ k ∈ R, A.length < k) :
    without R (A ++ n :: B) = A ++ n :: pick (fun i => !R.contains i) (A.length + 1) B := by
  show pick (fun i => !R.contains i) 0 _ = _
  have hc : ∀ i, i ≤ A.length → (!R.contains i) = true := by
    intro i hi
    simp only [List.contains_eq_mem, Bool.not_eq_true', decide_eq_false_iff_not]
    intro hm
    have := h i hm; omega
  rw [pick_append, pick_all _ 0 A fun i _ h2 => hc i (by omega), Nat.zero_add, pick_cons, if_pos (hc _ (Nat.le_refl _))]

theorem dropped (R A B : List Nat) (n : Nat) (hs : R.Pairwise (· < ·)) (h : ∀ k ∈ R, A.length < k ∧ k < (A ++ n :: B).length) :
    pick (fun i => R.contains i) (A.length + 1) B = R.map fun k => (A ++ n :: B).getD k 0 := by
  rw [pick_sorted R (A.length + 1) B hs fun k hk => by
    have := h k hk; simp only [List.length_append, List.length_cons] at this; omega]
  refine List.map_congr_left fun k hk => ?_
  have := (h k hk).1
  rw [List.getD_append_right _ _ _ _ (by omega), show k - A.length = (k - (A.length + 1)) + 1 by omega, List.getD_cons_succ]

/-- `diag(ix)` with the axes in increasing order: the elements at the indices that agree along these axes, each once.
The common index stays at the first of the axes, the others are dropped. -/
theorem C165_diag (v : View) (a : Nat) (R : List Nat) (n : Nat) (hwf : v.WF) (hs : (a :: R).Pairwise (· < ·))
    (hR : ∀ k ∈ a :: R, v.dims[k]? = some n) :
    ∃ w, v.diagL (a :: R) = .ok w ∧ w.dims = without R v.dims ∧ w.WF ∧
      (∀ ix, InRange ix v.dims → (∀ k ∈ R, ix.getD k 0 = ix.getD a 0) →
        InRange (without R ix) w.dims ∧ w.cell (without R ix) = v.cell ix) ∧
      ∀ jx, InRange jx w.dims →
        ∃ ix, (InRange ix v.dims ∧ (∀ k ∈ R, ix.getD k 0 = ix.getD a 0) ∧ without R ix = jx) ∧
          ∀ ix', InRange ix' v.dims → (∀ k ∈ R, ix'.getD k 0 = ix'.getD a 0) → without R ix' = jx → ix' = ix := by
  obtain ⟨off, dims, strides⟩ := v
  simp only [WF] at hwf hR ⊢
  have hla : a < dims.length := by
    have := hR a List.mem_cons_self
    exact (List.getElem?_eq_some_iff.1 this).1
  obtain ⟨A, n', B, rfl, rfl, -⟩ := split_at dims a hla
  obtain ⟨S, s, T, rfl, hS, -⟩ := split_at strides A.length (by omega)
  have hT : T.length = B.length := by simp at hwf; omega
  have hn : n' = n := by
    have := hR _ List.mem_cons_self
    simpa using this
  subst hn
  rw [List.pairwise_cons] at hs
  have hlt : ∀ k ∈ R, A.length < k ∧ k < (A ++ n' :: B).length := fun k hk =>
    ⟨hs.1 k hk, (List.getElem?_eq_some_iff.1 (hR k (List.mem_cons_of_mem _ hk))).1⟩
  have hltS : ∀ k ∈ R, S.length < k ∧ k < (S ++ s :: T).length := fun k hk => by
    have := hlt k hk; rw [← hwf] at this; omega
  have w1 := without_split R A B n' fun k hk => (hlt k hk).1
  have w2 := without_split R S T s fun k hk => (hltS k hk).1
  have d2 := dropped R S T s hs.2 hltS
  have hlen : R.length ≤ (A ++ n' :: B).length := by
    have hnd : R.Nodup := hs.2.imp (fun h => Nat.ne_of_lt h)
    have hsub : R ⊆ List.range (A ++ n' :: B).length := fun k hk => List.mem_range.2 (hlt k hk).2
    simpa using (List.subperm_of_subset hnd hsub).length_le
  have ex : ∀ l : List Nat, l.length = (A ++ n' :: B).length → gvExcept l R = .ok (without R l) := by
    intro l hl
    rw [gvExcept, if_neg (by omega), exceptLoop_eq l.length R l 0 (by omega) hs.2 (by simp) fun k hk => by
      rw [hl]; exact (hlt k hk).2]
    rfl
  have hloop : ∀ (Q : List Nat) (t : Nat), (∀ k ∈ Q, k ∈ R) →
      Res.forM Q t (fun s1 i => do
        Res.assrt (i < (A ++ n' :: B).length)
        let d ← Res.get (A ++ n' :: B) i
        Res.assrt (d = n')
        let t ← Res.get (S ++ s :: T) i
        Res.ok (s1 + t)) = .ok (t + (Q.map fun k => (S ++ s :: T).getD k 0).sum) := by
    intro Q
    induction Q with
    | nil => intro t _; simp [Res.forM_nil]
    | cons k Q ih =>
      intro t hQ
      have hk := hQ k List.mem_cons_self
      have g1 : Res.get (A ++ n' :: B) k = .ok n' := by rw [Res.get, hR k (List.mem_cons_of_mem _ hk)]
      have g2 : Res.get (S ++ s :: T) k = .ok ((S ++ s :: T).getD k 0) := by
        rw [Res.get, List.getElem?_eq_getElem (hltS k hk).2, List.getD_eq_getElem _ _ (hltS k hk).2]
      rw [Res.forM_cons, g1, g2]
      simp only [(hlt k hk).2, decide_true, Res.assrt_true, Res.ok_bind]
      rw [ih _ fun j hj => hQ j (List.mem_cons_of_mem _ hj), List.map_cons, List.sum_cons, Nat.add_assoc]
  have hnot : (fun i => !(fun i => !R.contains i) i) = fun i => R.contains i := by funext i; simp
  refine ⟨⟨off, without R (A ++ n' :: B),
    S ++ (s + (R.map fun k => (S ++ s :: T).getD k 0).sum) :: pick (fun i => !R.contains i) (A.length + 1) T⟩, ?_, rfl, ?_, ?_, ?_⟩
  · have hl := hloop R s fun _ h => h
    have gA : Res.get (A ++ n' :: B) A.length = .ok n' := get_split ..
    have gS : Res.get (S ++ s :: T) A.length = .ok s := by rw [← hS]; exact get_split ..
    simp only [diagL, gA, gS, Res.ok_bind, hl, ex _ rfl, ex _ hwf, hla, decide_true, Res.assrt_true]
    rw [w2, ← hS, gvSet_split]
    rfl
  · simp only [w1, List.length_append, List.length_cons, hS, pick_length _ (A.length + 1) T B hT]
  · intro ix hix hk
    obtain ⟨X, i, Y, rfl, hX, hXA, hi, hY⟩ := inRange_split hix
    have hk' : ∀ k ∈ R, (X ++ i :: Y).getD k 0 = i := by
      intro k hkR
      rw [hk k hkR, ← hX, List.getD_append_right _ _ _ _ (Nat.le_refl _)]; simp
    have hlen' := hix.length
    have hltX : ∀ k ∈ R, X.length < k ∧ k < (X ++ i :: Y).length := fun k hk => by
      have := hlt k hk; rw [hlen', hX]; exact this
    have w3 := without_split R X Y i fun k hk => (hltX k hk).1
    have d3 := dropped R X Y i hs.2 hltX
    have hc : ∀ x ∈ pick (fun i => R.contains i) (X.length + 1) Y, x = i := by
      rw [d3]
      intro x hx
      obtain ⟨k, hkR, rfl⟩ := List.mem_map.1 hx
      exact hk' k hkR
    have hTY : T.length = Y.length := by rw [hT]; exact hY.length.symm
    refine ⟨?_, ?_⟩
    · rw [w3, w1, hX]
      exact (inRange_append hX).2 ⟨hXA, inRange_cons.2 ⟨hi, inRange_pick _ _ _ _ hY⟩⟩
    · simp only [cell]
      rw [w3, dot_append _ _ _ _ (by omega), dot_append _ _ _ _ (by omega), dot_cons, dot_cons,
        dot_pick (fun i => !R.contains i) (A.length + 1) T Y hTY, hnot, ← hX,
        dot_const (pick (fun i => R.contains i) (X.length + 1) T) _ i hc (pick_length _ _ _ _ hTY), ← d2, hX, hS]
      ring
  · intro jx hjx
    rw [w1] at hjx
    obtain ⟨X, i, y, rfl, hX, hXA, hi, hy⟩ := inRange_split hjx
    have dB := dropped R A B n' hs.2 hlt
    obtain ⟨f1, f2, f3⟩ := fillIn_spec (fun i => !R.contains i) i (A.length + 1) B y hy (by
      rw [hnot, dB]
      intro x hx
      obtain ⟨k, hkR, rfl⟩ := List.mem_map.1 hx
      rw [List.getD, hR k (List.mem_cons_of_mem _ hkR)]
      exact hi)
    rw [hnot] at f3
    generalize hF : fillIn (fun i => !R.contains i) i (A.length + 1) B y = F at *
    have hltF : ∀ k ∈ R, X.length < k ∧ k < (X ++ i :: F).length := fun k hk => by
      have := hlt k hk
      simp only [List.length_append, List.length_cons, f1.length, hX] at this ⊢
      exact this
    have dF := dropped R X F i hs.2 hltF
    have gi : ∀ Z : List Nat, (X ++ i :: Z).getD A.length 0 = i := fun Z => by
      rw [← hX, List.getD_append_right _ _ _ _ (Nat.le_refl _)]; simp
    refine ⟨X ++ i :: F, ⟨(inRange_append hX).2 ⟨hXA, inRange_cons.2 ⟨hi, f1⟩⟩, ?_, ?_⟩, ?_⟩
    · intro k hkR
      rw [gi]
      apply f3
      rw [← hX, dF]
      exact List.mem_map.2 ⟨k, hkR, rfl⟩
    · rw [without_split R X F i fun k hk => (hltF k hk).1, hX, f2]
    · intro ix' hix' hk' he
      obtain ⟨X', i', Y', rfl, hX', hXA', hi', hY'⟩ := inRange_split hix'
      have hltY : ∀ k ∈ R, X'.length < k ∧ k < (X' ++ i' :: Y').length := fun k hk => by
        have := hlt k hk; rw [hix'.length, hX']; exact this
      rw [without_split R X' Y' i' fun k hk => (hltY k hk).1] at he
      obtain ⟨rfl, e2⟩ := List.append_inj he (by omega)
      obtain ⟨rfl, e3⟩ := List.cons.inj e2
      have : Y' = F := by
        refine pick_inj (fun i => !R.contains i) i' (A.length + 1) Y' F (by rw [hY'.length, f1.length]) ?_ ?_ ?_
        · rw [f2, ← e3, hX]
        · rw [hnot, ← hX, dropped R X' Y' i' hs.2 hltY]
          intro x hx
          obtain ⟨k, hkR, rfl⟩ := List.mem_map.1 hx
          rw [hk' k hkR]; exact gi Y'
        · rw [hnot]; exact f3
      rw [this]

example : (⟨5, [2, 3, 2, 2], [12, 4, 2, 1]⟩ : View).diagL [0, 2, 3] = .ok ⟨5, [2, 3], [15, 4]⟩ ∧
    without [2, 3] [1, 2, 1, 1] = [1, 2] ∧
    (⟨5, [2, 3], [15, 4]⟩ : View).cell [1, 2] = (⟨5, [2, 3, 2, 2], [12, 4, 2, 1]⟩ : View).cell [1, 2, 1, 1] := by decide

/-! ## C166: what does not hold -/

/-- `diag(ix)` needs the first axis to be the smallest: otherwise the summed stride goes to another axis, or past the end. -/
theorem C166_diag_order_fails :
    (⟨0, [2, 2, 3], [6, 3, 1]⟩ : View).diagL [1, 0] = .ok ⟨0, [2, 3], [3, 9]⟩ ∧
      (⟨0, [2, 2], [2, 1]⟩ : View).diagL [1, 0] = .ub ∧
      (⟨0, [2, 3], [3, 9]⟩ : View).cell [1, 2] ∉ (⟨0, [2, 2, 3], [6, 3, 1]⟩ : View).cells := by decide

/-- `diag(ix)` does not accept the other axes out of order. -/
theorem C166_diag_unsorted_fails : (⟨0, [2, 2, 2], [4, 2, 1]⟩ : View).diagL [0, 2, 1] = .ub := by decide

/-- `fuse(ix)` computes the smallest stride and does not use it: the two axes of any row-major matrix with at least two columns
become one axis that steps by whole rows, past the end of the matrix. -/
theorem C166_fuse_fails (q n m : Nat) (hn : 0 < n) (hm : 2 ≤ m) :
    ∃ w, (new q [n, m]).fuseL [0, 1] = .ok w ∧ w.dims = [n * m] ∧ InRange [n * m - 1] w.dims ∧
      w.cell [n * m - 1] ∉ (new q [n, m]).cells := by
  refine ⟨⟨q, [n * m], [m]⟩, ?_, rfl, inRange_cons.2 ⟨?_, inRange_nil⟩, ?_⟩
  · have : rmStrides [n, m] = [m, 1] := by simp [rmStrides_cons]
    simp [new, this, fuseL, Res.get, gvExcept, exceptLoop, gvSet, Res.assrt, Res.forM]
  · have := Nat.mul_pos hn (show 0 < m by omega)
    omega
  · intro h
    obtain ⟨ix, hix, e⟩ := List.mem_map.1 h
    have hi : InRange ix [n, m] := mem_allIndices.1 hix
    rw [new_cell q hi] at e
    have h1 := position_lt hi
    simp only [List.prod_cons, List.prod_nil, Nat.mul_one] at h1
    simp only [cell, dot_cons, dot_nil_left] at e
    have h2 : n * m ≤ m * (n * m - 1) := by
      have h3 : 2 ≤ n * m := Nat.le_trans hm (Nat.le_mul_of_pos_left m hn)
      calc n * m ≤ 2 * (n * m - 1) := by omega
        _ ≤ m * (n * m - 1) := Nat.mul_le_mul_right _ hm
    omega

end View
end Cnine
