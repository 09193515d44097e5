import Verif.Lemmas.Devices

/-!
# C447–C453: copies of tensors between the host and the GPU
-/

namespace Cnine

variable {α : Type}

namespace Dev

open View

/-- The call returns a tensor of the device `d` with the shape of `x` and entries `F`; the cells in use before are unchanged. -/
def Copied (res : Res (DV × Mems α)) (m : Mems α) (x : DV) (F : List Nat → α) (d : Bool) : Prop :=
  ∃ t m', res = .ok (t, m') ∧ t.dev = d ∧ t.v.dims = x.v.dims ∧ Holds m' t F ∧ Keeps m m'

theorem keeps_of {m m' : Mems α} {d : Bool} {g : Nat → α} {n : Nat} {ds ss : List Nat} {F : List Nat → α} (h : Assigned (m.alloc g d n) m' ⟨⟨m.top d, ds, ss⟩, d⟩ F) : Keeps m m' := by
  intro e
  refine ⟨Nat.le_trans (top_alloc_le m d e g n) (h.2.1 e), fun c hc => ?_⟩
  rw [h.2.2 e c (Nat.lt_of_lt_of_le hc (top_alloc_le m d e g n)) ?_, buf_alloc_lt _ _ _ _ _ hc]
  rintro rfl ix hi rfl
  simp only [View.cell] at hc
  omega

/-- There is an outcome of the kernels, whatever the views and the memory. -/
theorem picks_exists [Add α] : ∃ kern : View → View → Buf α → Res (Buf α), Picks kern := by
  have key : ∀ (ls : List (Gpu.Launch α)) (m : Buf α), ∃ o, Gpu.Out ls m o := by
    intro ls
    induction ls with
    | nil => exact fun m => ⟨_, .nil m⟩
    | cons l ls ih =>
      intro m
      cases hv : l.valid with
      | false =>
        obtain ⟨o, h⟩ := ih m
        exact ⟨o, .skip hv h⟩
      | true =>
        obtain ⟨sched, h | ⟨m', ts', h, h'⟩⟩ := Gpu.finish m l.start
        · exact ⟨_, .bad hv sched h⟩
        · obtain ⟨o, h2⟩ := ih m'
          exact ⟨o, .ran hv sched m' ts' h h' h2⟩
  exact ⟨fun r x m => Classical.choose (key (cuAssign r x) m), fun r x m => Classical.choose_spec (key (cuAssign r x) m)⟩

variable (kern : View → View → Buf α → Res (Buf α)) (junk : Nat → α) (num : Bool)

/-! ### C447: row-major tensors -/

theorem new_copied (f : Nat) {x : DV} (d : Bool) {m : Mems α} (hm : m.Ok) {F : List Nat → α} (hx : Holds m x F) (hs : x.v.strides = rmStrides x.v.dims) (g : Nat → α) :
    ∃ m', assign kern junk num (f + 1) ⟨View.new (m.top d) x.v.dims, d⟩ x (m.alloc g d (asize x.v.dims)) = .ok m' ∧
      Assigned (m.alloc g d (asize x.v.dims)) m' ⟨View.new (m.top d) x.v.dims, d⟩ F := by
  obtain ⟨b, h1, h2⟩ := assign_flat kern junk num f (tgt_new hm hx d g) hs.symm (contig_new _ _)
  exact ⟨_, h1, assigned_put h2⟩

theorem copied_of {f : Nat} {x : DV} {d : Bool} {m : Mems α} {F : List Nat → α} {g : Nat → α}
    (h : ∃ m', assign kern junk num f ⟨View.new (m.top d) x.v.dims, d⟩ x (m.alloc g d (asize x.v.dims)) = .ok m' ∧
      Assigned (m.alloc g d (asize x.v.dims)) m' ⟨View.new (m.top d) x.v.dims, d⟩ F) :
    Copied (do
      let t : DV := ⟨View.new (m.top d) x.v.dims, d⟩
      let m ← assign kern junk num f t x (m.alloc g d (asize x.v.dims))
      .ok (t, m)) m x F d := by
  obtain ⟨m', h1, h2⟩ := h
  refine ⟨⟨View.new (m.top d) x.v.dims, d⟩, m', ?_, rfl, rfl, ⟨TFun.new_WF _ _, h2.1⟩, keeps_of h2⟩
  dsimp only
  rw [h1, Res.ok_bind]

/-- `TensorView(x,dev)`. -/
theorem C447_ctor (f : Nat) (x : DV) (d : Bool) (m : Mems α) (hm : m.Ok) (F : List Nat → α) (hx : Holds m x F) (hs : x.v.strides = rmStrides x.v.dims) :
    Copied (ofDev kern junk num (f + 1) x d m) m x F d := copied_of kern junk num (new_copied kern junk num f d hm hx hs junk)

/-- `copy(dev)`. -/
theorem C447_copy [Zero α] (f : Nat) (x : DV) (d : Bool) (m : Mems α) (hm : m.Ok) (F : List Nat → α) (hx : Holds m x F) (hs : x.v.strides = rmStrides x.v.dims) :
    Copied (copyTo kern junk num (f + 1) x d m) m x F d := copied_of kern junk num (new_copied kern junk num f d hm hx hs _)

/-- `move_to_device(dev)`. -/
theorem C447_move (f : Nat) (x : DV) (d : Bool) (m : Mems α) (hm : m.Ok) (F : List Nat → α) (hx : Holds m x F) (hs : x.v.strides = rmStrides x.v.dims) :
    Copied (moveTo kern junk num (f + 1) x d m) m x F d := by
  rw [moveTo]
  split
  · rename_i h
    exact ⟨x, m, rfl, h.symm, rfl, hx, fun d => ⟨Nat.le_refl _, fun _ _ => rfl⟩⟩
  · obtain ⟨m', h1, h2⟩ := new_copied kern junk num f d hm hx hs junk
    refine ⟨⟨View.new (m.top d) x.v.dims, d⟩, m', ?_, rfl, rfl, ⟨TFun.new_WF _ _, h2.1⟩, keeps_of h2⟩
    rw [ofDev]
    dsimp only
    rw [h1, Res.ok_bind, Res.ok_bind, hs]
    rfl

/-- Tensors made on the host with given entries and moved: `ones`, `sequential`, `gaussian`. -/
theorem C447_filled (fill : Nat → α) (f : Nat) (dims : List Nat) (d : Bool) (m : Mems α) (hm : m.Ok) :
    ∃ t m', filled kern junk num fill (f + 1) dims d m = .ok (t, m') ∧ t.dev = d ∧ t.v.dims = dims ∧ Holds m' t (fun ix => fill (position dims ix)) ∧ Keeps m m' := by
  obtain ⟨b, h1, h2⟩ := raw_fill fill junk (m.top false) dims m.host
  have hb : fillBlock fill (m.top false) (asize dims) (m.alloc junk false (asize dims)).host = .ok b := h1
  have ht : ∀ e, ((m.alloc junk false (asize dims)).put false b).top e = (m.alloc junk false (asize dims)).top e := fun e => top_put _ _ _ _
  have hok : ((m.alloc junk false (asize dims)).put false b).Ok := by
    intro e c hc
    rw [ht] at hc
    cases e with
    | true =>
      rw [buf_put_ne _ _ _ _ (by simp), buf_alloc_ne _ _ _ _ _ (by simp)]
      exact hm true c (by rwa [top_alloc_ne _ _ _ _ _ (by simp)] at hc)
    | false =>
      rw [top_alloc, asize_eq] at hc
      rw [buf_put, h2.2 c (by omega)]
      exact hm false c (by omega)
  have hh : Holds ((m.alloc junk false (asize dims)).put false b) ⟨View.new (m.top false) dims, false⟩ (fun ix => fill (position dims ix)) :=
    ⟨TFun.new_WF _ _, fun ix hi => by rw [buf_put]; exact h2.1 ix hi⟩
  obtain ⟨t, m', g1, g2, g3, g4, g5⟩ := C447_move kern junk num f _ d _ hok _ hh rfl
  refine ⟨t, m', ?_, g2, g3, g4, fun e => ⟨?_, fun c hc => ?_⟩⟩
  · rw [filled]
    dsimp only
    rw [show (View.new (m.top false) dims).off = m.top false from rfl, hb, Res.ok_bind]
    exact g1
  · have := (g5 e).1
    rw [ht] at this
    exact Nat.le_trans (top_alloc_le _ _ _ _ _) this
  · rw [(g5 e).2 c (by rw [ht]; exact Nat.lt_of_lt_of_le hc (top_alloc_le _ _ _ _ _))]
    cases e with
    | true => rw [buf_put_ne _ _ _ _ (by simp), buf_alloc_ne _ _ _ _ _ (by simp)]
    | false => rw [buf_put, h2.2 c (.inl hc)]; rfl

/-- A 2×3 matrix on the host. -/
example : ∃ m : Mems Int, m.Ok ∧ Holds m ⟨⟨0, [2, 3], [3, 1]⟩, false⟩ (fun ix => position [2, 3] ix) := by
  refine ⟨⟨fun c => if c < 6 then some c else none, fun _ => none, 6, 0⟩, ?_, rfl, ?_⟩
  · intro d c hc
    cases d with
    | true => rfl
    | false =>
      have hc : 6 ≤ c := hc
      exact if_neg (by omega)
  · intro ix hi
    obtain ⟨i, j, hi, hj, rfl⟩ := inRange2.1 hi
    simp only [Mems.buf, View.cell, dot, position]
    simp
    omega

/-! ### C448: other tensors of the GPU, for the sizes the kernels handle -/

/-- To the host. -/
theorem C448_home [Add α] (hk : Picks kern) (f : Nat) (x : View) (m : Mems α) (hm : m.Ok) (F : List Nat → α) (hx : Holds m ⟨x, true⟩ F) (h2 : ∀ d ∈ x.dims, 2 ≤ d)
    (hb : x.dims.prod ≤ 2147483647) (hh : ∀ ds, Grouped x.dims ds → Handled ds) : Copied (ofDev kern junk true (f + 2) ⟨x, true⟩ false m) m ⟨x, true⟩ F false := by
  by_cases hs : x.strides = rmStrides x.dims
  · exact C447_ctor kern junk true (f + 1) ⟨x, true⟩ false m hm F hx hs
  · exact copied_of kern junk true (assign_home kern junk hk f (hm.alloc _ _ _) (tgt_new hm hx false junk) h2 hb hs hh)

/-- Within the GPU. -/
theorem C448_gpu [Add α] (hk : Picks kern) (f : Nat) (x : View) (m : Mems α) (hm : m.Ok) (F : List Nat → α) (hx : Holds m ⟨x, true⟩ F) (h2 : ∀ d ∈ x.dims, 2 ≤ d)
    (hb : x.dims.prod ≤ 2147483647) (hh : ∀ ds, Grouped x.dims ds → Handled ds) : Copied (ofDev kern junk true (f + 1) ⟨x, true⟩ true m) m ⟨x, true⟩ F true := by
  by_cases hs : x.strides = rmStrides x.dims
  · exact C447_ctor kern junk true f ⟨x, true⟩ true m hm F hx hs
  · exact copied_of kern junk true (assign_gpu kern junk hk f (tgt_new hm hx true junk) h2 hb hs hh)

/-- `copy(dev)`. -/
theorem C448_copy [Add α] [Zero α] (hk : Picks kern) (f : Nat) (x : View) (d : Bool) (m : Mems α) (hm : m.Ok) (F : List Nat → α) (hx : Holds m ⟨x, true⟩ F) (h2 : ∀ d ∈ x.dims, 2 ≤ d)
    (hb : x.dims.prod ≤ 2147483647) (hh : ∀ ds, Grouped x.dims ds → Handled ds) : Copied (copyTo kern junk true (f + 2) ⟨x, true⟩ d m) m ⟨x, true⟩ F d := by
  by_cases hs : x.strides = rmStrides x.dims
  · exact C447_copy kern junk true (f + 1) ⟨x, true⟩ d m hm F hx hs
  · cases d with
    | false => exact copied_of kern junk true (assign_home kern junk hk f (hm.alloc _ _ _) (tgt_new hm hx false _) h2 hb hs hh)
    | true => exact copied_of kern junk true (assign_gpu kern junk hk (f + 1) (tgt_new hm hx true _) h2 hb hs hh)

/-- All tensors of one to three axes with at most 1023 entries have such sizes. -/
theorem C448_small (ds : List Nat) (h0 : ds ≠ []) (h3 : ds.length ≤ 3) (h2 : ∀ d ∈ ds, 2 ≤ d) (hp : ds.prod < 1024) : ∀ ds', Grouped ds ds' → Handled ds' := by
  rintro ds' ⟨parts, g1, rfl, rfl⟩
  have hpos : ∀ p ∈ parts, 2 ≤ p.prod := by
    intro p hpm
    cases p with
    | nil => exact absurd rfl (g1 [] hpm)
    | cons a p =>
      have ha := h2 a (List.mem_flatten.2 ⟨_, hpm, by simp⟩)
      have hq : 0 < p.prod := prod_pos_of_two fun d hd => h2 d (List.mem_flatten.2 ⟨_, hpm, List.mem_cons_of_mem _ hd⟩)
      rw [List.prod_cons]
      exact Nat.le_trans ha (Nat.le_mul_of_pos_right _ hq)
  have hlen : parts.length ≤ parts.flatten.length := by
    clear hpos h0 h2 h3 hp
    induction parts with
    | nil => simp
    | cons p ps ih =>
      have := ih fun q hq => g1 q (List.mem_cons_of_mem _ hq)
      have hne := List.length_pos_iff.2 (g1 p (by simp))
      rw [List.flatten_cons, List.length_append, List.length_cons]
      omega
  rw [List.prod_flatten] at hp
  match parts, hpos, hp, h0, hlen with
  | [], _, _, h0, _ => exact absurd rfl h0
  | [a], hpos, hp, _, _ =>
    simp only [List.map_cons, List.map_nil, List.prod_cons, List.prod_nil, Nat.mul_one] at hp
    exact ⟨by omega, .inl hp⟩
  | [a, b], hpos, hp, _, _ =>
    simp only [List.map_cons, List.map_nil, List.prod_cons, List.prod_nil, Nat.mul_one] at hp
    have ha := hpos a (by simp)
    have hb := hpos b (by simp)
    have h1 := Nat.mul_le_mul ha (Nat.le_refl b.prod)
    have h2 := Nat.mul_le_mul (Nat.le_refl a.prod) hb
    exact ⟨by omega, .inl (by omega)⟩
  | [a, b, c], hpos, hp, _, _ =>
    simp only [List.map_cons, List.map_nil, List.prod_cons, List.prod_nil, Nat.mul_one] at hp
    have ha := hpos a (by simp)
    have hb := hpos b (by simp)
    have hc := hpos c (by simp)
    have h1 := Nat.mul_le_mul hb (Nat.le_refl c.prod)
    have h2 := Nat.mul_le_mul ha (Nat.le_refl (b.prod * c.prod))
    have h4 := Nat.mul_le_mul (Nat.le_refl b.prod) hc
    have h5 := Nat.mul_le_mul (Nat.le_refl a.prod) (show 2 ≤ b.prod * c.prod by omega)
    refine ⟨by omega, by omega, fun h => ?_, .inl (by omega)⟩
    rw [Nat.mul_assoc] at h
    omega
  | _ :: _ :: _ :: _ :: _, _, _, _, hlen => simp only [List.length_cons] at hlen; omega

/-- A transposed matrix on the GPU. -/
example : ∀ ds', Grouped [30, 20] ds' → Handled ds' := C448_small _ (by decide) (by decide) (by decide) (by decide)

/-! ### C449: other tensors of the host, to the GPU -/

theorem never : ∀ (f : Nat) (q : Nat) (x : View) (m : Mems α), x.WF → (∀ d ∈ x.dims, 2 ≤ d) → x.dims.prod ≤ 2147483647 → x.strides ≠ rmStrides x.dims →
    assign kern junk true f ⟨View.new q x.dims, true⟩ ⟨x, false⟩ m = .ub
  | 0, _, _, _, _, _, _, _ => rfl
  | f + 1, q, x, m, hx, h2, hb, hs => by
    obtain ⟨ds, ss, h1, h3, h4, h5, h6⟩ := scrunch_new q x hx h2 hb
    obtain ⟨l1, l2⟩ : ¬ (View.new q x.dims).dims.length = 0 ∧ ¬ asize (View.new q x.dims).dims = 0 := prod_ne_nil h2 hx hs
    rw [assign]
    dsimp only
    rw [decide_eq_true (show (View.new q x.dims).dims = x.dims from rfl), Res.assrt_true, Res.ok_bind, if_neg l1, Res.ok_bind, if_neg l2, contig_new, Res.ok_bind,
      if_neg fun h => hs h.2.symm, h1, Res.ok_bind]
    dsimp only
    rw [if_neg (by simp), if_neg (by simp), if_pos rfl, if_pos rfl,
      never f (m.top true) ⟨x.off, ds, ss⟩ _ h3 h4 (by rw [grouped_prod h5]; exact hb) fun h => hs (h6.1 h)]
    rfl

/-- The call never ends: whatever the depth allowed, it is exceeded. -/
theorem C449_never_fails (f : Nat) (x : View) (m : Mems α) (hx : x.WF) (h2 : ∀ d ∈ x.dims, 2 ≤ d) (hb : x.dims.prod ≤ 2147483647) (hs : x.strides ≠ rmStrides x.dims) :
    ofDev kern junk true f ⟨x, false⟩ true m = .ub := by
  rw [ofDev]
  dsimp only
  rw [never kern junk f _ x _ hx h2 hb hs]
  rfl

/-- Every second entry of a vector. -/
example : (⟨0, [5], [2]⟩ : View).WF ∧ (∀ d ∈ [5], 2 ≤ d) ∧ [5].prod ≤ 2147483647 ∧ [2] ≠ rmStrides [5] := by decide

/-- Row-major tensors are copied.  Missing: all others of the host (`C449_never_fails`), and those of other types (`C449_complex_fails`). -/
theorem C449_upload_partial (f : Nat) (x : View) (m : Mems α) (hm : m.Ok) (F : List Nat → α) (hx : Holds m ⟨x, false⟩ F) (hs : x.strides = rmStrides x.dims) :
    Copied (ofDev kern junk num (f + 1) ⟨x, false⟩ true m) m ⟨x, false⟩ F true := C447_ctor kern junk num f ⟨x, false⟩ true m hm F hx hs

/-- Types other than `int`, `float` and `double`: whenever the GPU takes part nothing is copied, the new tensor holds what was in its memory. -/
theorem C449_complex_fails (f : Nat) (x : DV) (d : Bool) (m : Mems α) (hx : x.v.WF) (h2 : ∀ d ∈ x.v.dims, 2 ≤ d) (hb : x.v.dims.prod ≤ 2147483647) (hs : x.v.strides ≠ rmStrides x.v.dims)
    (hd : x.dev = true ∨ d = true) :
    ∃ t m', ofDev kern junk false (f + 1) x d m = .ok (t, m') ∧ ∀ ix, InRange ix t.v.dims → m'.buf d (t.v.cell ix) = some (junk (t.v.cell ix)) := by
  obtain ⟨ds, ss, h1, h3, h4, h5, h6⟩ := scrunch_new (m.top d) x.v hx h2 hb
  obtain ⟨l1, l2⟩ : ¬ (View.new (m.top d) x.v.dims).dims.length = 0 ∧ ¬ asize (View.new (m.top d) x.v.dims).dims = 0 := prod_ne_nil h2 hx hs
  refine ⟨⟨View.new (m.top d) x.v.dims, d⟩, m.alloc junk d (asize x.v.dims), ?_, fun ix hi => ?_⟩
  · rw [ofDev]
    rw [assign]
    dsimp only
    rw [decide_eq_true (show (View.new (m.top d) x.v.dims).dims = x.v.dims from rfl), Res.assrt_true, Res.ok_bind, if_neg l1, Res.ok_bind, if_neg l2, contig_new, Res.ok_bind,
      if_neg fun h => hs h.2.symm, h1, Res.ok_bind]
    dsimp only
    rw [if_neg (by rintro ⟨rfl, h⟩; rw [h] at hd; simp at hd), if_pos rfl, Res.ok_bind]
  · have hi : InRange ix x.v.dims := hi
    have := position_lt hi
    rw [new_cell _ hi, buf_alloc, allocRaw, asize_eq, if_pos (by omega)]

/-! ### C450: moving a tensor keeps its entries -/

/-- Row-major tensors.  Missing: others, whose strides are kept though the entries are now in row-major order (`C450_strides_fails`, `C450_transposed_fails`). -/
theorem C450_move_partial (f : Nat) (x : DV) (d : Bool) (m : Mems α) (hm : m.Ok) (F : List Nat → α) (hx : Holds m x F) (hs : x.v.strides = rmStrides x.v.dims) :
    Copied (moveTo kern junk num (f + 1) x d m) m x F d := C447_move kern junk num f x d m hm F hx hs

/-- A tensor of the GPU moved to the host: the entry at `ix` is the one that was at the index `jx` with the row-major position that is the offset of `ix`. -/
theorem C450_strides_fails [Add α] (hk : Picks kern) (f : Nat) (x : View) (m : Mems α) (hm : m.Ok) (F : List Nat → α) (hx : Holds m ⟨x, true⟩ F) (h2 : ∀ d ∈ x.dims, 2 ≤ d)
    (hb : x.dims.prod ≤ 2147483647) (hh : ∀ ds, Grouped x.dims ds → Handled ds) :
    ∃ t m', moveTo kern junk true (f + 2) ⟨x, true⟩ false m = .ok (t, m') ∧ t.dev = false ∧ t.v.dims = x.dims ∧
      ∀ ix jx, InRange ix x.dims → InRange jx x.dims → dot x.strides ix = position x.dims jx → m'.host (t.v.cell ix) = some (F jx) := by
  obtain ⟨t, m', h1, h3, h4, h5, _⟩ := C448_home kern junk hk f x m hm F hx h2 hb hh
  have ht : t = ⟨View.new (m.top false) x.dims, false⟩ := by
    rw [ofDev] at h1
    obtain ⟨m1, _, h⟩ := Res.bind_eq_ok.1 h1
    injection h with h
    rw [Prod.mk.injEq] at h
    exact h.1.symm
  subst ht
  refine ⟨⟨⟨m.top false, x.dims, x.strides⟩, false⟩, m', ?_, rfl, rfl, fun ix jx hi hj e => ?_⟩
  · rw [moveTo, if_neg (by simp), h1, Res.ok_bind]
    rfl
  · have := h5.2 jx hj
    dsimp only at this
    rw [new_cell _ hj] at this
    show m'.host (m.top false + dot x.strides ix) = _
    rw [e]
    exact this

/-- The transpose of a 3×2 matrix: entry (0,1) becomes what was entry (0,2). -/
theorem C450_transposed_fails [Add α] (hk : Picks kern) (f : Nat) (o : Nat) (m : Mems α) (hm : m.Ok) (F : List Nat → α) (hx : Holds m ⟨⟨o, [2, 3], [1, 2]⟩, true⟩ F) (hF : F [0, 1] ≠ F [0, 2]) :
    ∃ t m', moveTo kern junk true (f + 2) ⟨⟨o, [2, 3], [1, 2]⟩, true⟩ false m = .ok (t, m') ∧ t.v.dims = [2, 3] ∧ m'.host (t.v.cell [0, 1]) ≠ some (F [0, 1]) := by
  obtain ⟨t, m', h1, _, h2, h3⟩ := C450_strides_fails kern junk hk f ⟨o, [2, 3], [1, 2]⟩ m hm F hx
    (show ∀ d ∈ [2, 3], 2 ≤ d by decide) (show [2, 3].prod ≤ 2147483647 by decide) (C448_small [2, 3] (by decide) (by decide) (by decide) (by decide))
  refine ⟨t, m', h1, h2, fun e => hF ?_⟩
  rw [h3 [0, 1] [0, 2] (inRange2.2 ⟨0, 1, by decide, by decide, rfl⟩) (inRange2.2 ⟨0, 2, by decide, by decide, rfl⟩) rfl] at e
  exact (Option.some_injective _ e).symm

/-! ### C451: copies that keep the strides -/

/-- Tensors without gaps, in whichever order their axes lie in memory, between any devices. -/
theorem C451_flat (f : Nat) (x : DV) (d : Bool) (m : Mems α) (hm : m.Ok) (F : List Nat → α) (hx : Holds m x F) (hdist : x.v.Distinct)
    (hz : x.v.strides = [] ∨ ∃ s ∈ x.v.strides, s ≠ 0) (hc : isContiguous x.v.strides x.v.dims = .ok true) :
    ∃ t m', copyKeeping kern junk num (f + 1) x d m = .ok (t, m') ∧ t.dev = d ∧ t.v.dims = x.v.dims ∧ t.v.strides = x.v.strides ∧ Holds m' t F ∧ Keeps m m' := by
  have hdist' : (⟨m.top d, x.v.dims, x.v.strides⟩ : View).Distinct := fun ix jx hi hj e => hdist ix jx hi hj (by simp only [View.cell] at e ⊢; omega)
  obtain ⟨n, hn, hcell⟩ : ∃ n, memsize x.v.strides x.v.dims = .ok n ∧ ∀ ix, InRange ix x.v.dims → dot x.v.strides ix < n := by
    by_cases hp : x.v.dims.prod = 0
    · have hne : x.v.strides.length ≠ 0 := by
        rw [show x.v.strides.length = x.v.dims.length from hx.1]
        intro h
        rw [List.length_eq_zero_iff.1 h] at hp
        simp at hp
      refine ⟨0, ?_, fun ix hi => ?_⟩
      · rw [memsize, decide_eq_true (show x.v.strides.length = x.v.dims.length from hx.1), Res.assrt_true, Res.ok_bind, if_neg hne, asize_eq, if_pos hp]
      · have := position_lt hi
        omega
    · obtain ⟨h1, h2⟩ := distinct_contiguous x.v hx.1 (Nat.pos_of_ne_zero hp) hdist hc
      exact ⟨_, h2 hz, (contig_cells x.v hx.1 h1).1⟩
  have t : Tgt (m.alloc junk d n) ⟨⟨m.top d, x.v.dims, x.v.strides⟩, d⟩ x F := by
    refine ⟨hx.1, rfl, hz, hdist', fun ix hi => ?_, hx.alloc hm d junk n, fun e ix jx hi hj h => ?_⟩
    · have := hcell ix hi
      rw [View.cell, buf_alloc, allocRaw, if_pos (by dsimp only; omega)]
      rfl
    · have h1 := hm.lt (hx.2 jx hj)
      dsimp only at e
      rw [← h, ← e, View.cell] at h1
      dsimp only at h1
      omega
  obtain ⟨b, h1, h2⟩ := assign_flat kern junk num f t rfl hc
  have h3 := assigned_put h2
  refine ⟨⟨⟨m.top d, x.v.dims, x.v.strides⟩, d⟩, _, ?_, rfl, rfl, rfl, ⟨hx.1, h3.1⟩, keeps_of h3⟩
  rw [copyKeeping, hn, Res.ok_bind]
  dsimp only
  rw [h1, Res.ok_bind]

/-- A transposed matrix. -/
example : isContiguous [1, 4] [4, 3] = .ok true := by decide

/-! ### C452: copies of any tensor of the GPU -/

/-- Tensors of the sizes that the kernels handle.  Missing: others, for example four axes in reverse order (`C452_four_fails`). -/
theorem C452_gpu_partial [Add α] (hk : Picks kern) (f : Nat) (x : View) (m : Mems α) (hm : m.Ok) (F : List Nat → α) (hx : Holds m ⟨x, true⟩ F) (h2 : ∀ d ∈ x.dims, 2 ≤ d)
    (hb : x.dims.prod ≤ 2147483647) (hh : ∀ ds, Grouped x.dims ds → Handled ds) : Copied (ofDev kern junk true (f + 1) ⟨x, true⟩ true m) m ⟨x, true⟩ F true :=
  C448_gpu kern junk hk f x m hm F hx h2 hb hh

/-- Four axes in reverse order: nothing is copied, the new tensor holds what was in its memory. -/
theorem C452_four_fails [Add α] (hk : Picks kern) (f o : Nat) (m : Mems α) :
    ∃ t m', ofDev kern junk true (f + 1) ⟨⟨o, [2, 2, 2, 2], [1, 2, 4, 8]⟩, true⟩ true m = .ok (t, m') ∧ ∀ ix, InRange ix t.v.dims → m'.gpu (t.v.cell ix) = some (junk (t.v.cell ix)) := by
  have hco : (View.new (m.top true) [2, 2, 2, 2]).coScrunch ⟨o, [2, 2, 2, 2], [1, 2, 4, 8]⟩ = .ok (View.new (m.top true) [2, 2, 2, 2], ⟨o, [2, 2, 2, 2], [1, 2, 4, 8]⟩) := by rfl
  have hker : kern (View.new (m.top true) [2, 2, 2, 2]) ⟨o, [2, 2, 2, 2], [1, 2, 4, 8]⟩ (m.alloc junk true 16).gpu = .ok (m.alloc junk true 16).gpu := by
    have := hk (View.new (m.top true) [2, 2, 2, 2]) ⟨o, [2, 2, 2, 2], [1, 2, 4, 8]⟩ (m.alloc junk true 16).gpu
    have e : cuAssign (α := α) (View.new (m.top true) [2, 2, 2, 2]) ⟨o, [2, 2, 2, 2], [1, 2, 4, 8]⟩ = [] := rfl
    rw [e] at this
    generalize kern _ _ _ = z at this
    cases this
    rfl
  refine ⟨⟨View.new (m.top true) [2, 2, 2, 2], true⟩, m.alloc junk true 16, ?_, fun ix hi => ?_⟩
  · rw [ofDev]
    dsimp only
    rw [show asize [2, 2, 2, 2] = 16 from rfl, assign]
    dsimp only
    rw [decide_eq_true (show (View.new (m.top true) [2, 2, 2, 2]).dims = [2, 2, 2, 2] from rfl), Res.assrt_true, Res.ok_bind,
      if_neg (show ¬ (View.new (m.top true) [2, 2, 2, 2]).dims.length = 0 from (by decide : ¬ [2, 2, 2, 2].length = 0)), Res.ok_bind, if_neg (show ¬ asize (View.new (m.top true) [2, 2, 2, 2]).dims = 0 from (by decide : ¬ asize [2, 2, 2, 2] = 0)), contig_new, Res.ok_bind,
      if_neg (show ¬ (true = true ∧ (View.new (m.top true) [2, 2, 2, 2]).strides = [1, 2, 4, 8]) from (by decide : ¬ (true = true ∧ rmStrides [2, 2, 2, 2] = [1, 2, 4, 8]))), hco, Res.ok_bind]
    dsimp only
    rw [if_neg (by simp), if_neg (by simp), if_pos rfl, if_neg (by simp), hker]
    rfl
  · have hi : InRange ix [2, 2, 2, 2] := hi
    have := position_lt hi
    rw [new_cell _ hi, gpu_buf, buf_alloc, allocRaw, if_pos (by simp at this; omega)]

/-! ### C453: copies that keep strides with gaps -/

/-- A vector with gaps, from the host to the GPU: the call never ends. -/
theorem C453_gaps_fails (f o n s : Nat) (m : Mems α) (hn : 2 ≤ n) (hb : n ≤ 2147483647) (hs : 2 ≤ s) : copyKeeping kern junk true f ⟨⟨o, [n], [s]⟩, false⟩ true m = .ub := by
  have hc : isContiguous [s] [n] = .ok false := by
    have h1 : ¬ s = 1 := by omega
    have h2 : 0 < s := by omega
    simp [isContiguous, isRegular, regularLoop, contigLoop, h1, h2, List.findIdx?_cons]
  have ho : ordering [s] = [0] := by
    simp [ordering, orderingLoop, minElement]
  have hco : (⟨m.top true, [n], [s]⟩ : View).coScrunch ⟨o, [n], [s]⟩ = .ok (⟨m.top true, [n], [s]⟩, ⟨o, [n], [s]⟩) := by
    rw [coScrunch]
    simp [ho, coScrunchAxes, coScrunchLoop]
  have ha : ¬ asize [n] = 0 := by rw [asize_eq]; simp; omega
  obtain ⟨k, hk⟩ : ∃ k, memsize [s] [n] = .ok k := by
    have hn0 : ¬ n = 0 := by omega
    have hs0 : ¬ s = 0 := by omega
    simp [memsize, Res.assrt, asize_eq, hn0, hs0]
  rw [copyKeeping]
  dsimp only
  rw [hk, Res.ok_bind]
  cases f with
  | zero => rfl
  | succ f =>
    rw [assign]
    dsimp only
    rw [decide_eq_true rfl, Res.assrt_true, Res.ok_bind, if_neg (show ¬ [n].length = 0 by simp), Res.ok_bind, if_neg ha, hc, Res.ok_bind, if_neg (by simp), hco, Res.ok_bind]
    dsimp only
    rw [if_neg (by simp), if_neg (by simp), if_pos rfl, if_pos rfl]
    have := never kern junk f ((m.alloc junk true k).top true) ⟨o, [n], [s]⟩ (((m.alloc junk true k)).alloc junk true (asize [n])) rfl (by simp; omega) (by simpa using hb)
      (by
        intro h
        injection h with h
        omega)
    dsimp only at this
    rw [this]
    rfl

end Dev

end Cnine
