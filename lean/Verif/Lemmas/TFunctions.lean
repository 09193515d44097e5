import Verif.Model.TFunctions
import Verif.Props.Construct
import Verif.Props.Visit
import Verif.Props.Mat
import Verif.Props.Cumul

/-! # Lemmas on functions that return new tensors -/

namespace Cnine

variable {α : Type}

namespace TFun

open View

/-- The view shows the values `X`. -/
def Shows (m : Buf α) (x : View) (X : List Nat → α) : Prop := ∀ ix, InRange ix x.dims → x.val m ix = some (X ix)

/-- No cell of `x` lies in the block of `n` cells at `q`. -/
def Outside (q n : Nat) (x : View) : Prop := ∀ ix, InRange ix x.dims → x.cell ix < q ∨ q + n ≤ x.cell ix

/-- The call returns a new tensor at `q` with shape `dims` and entries `f`, and has changed nothing else. -/
def Gives (res : Res (View × Buf α)) (m : Buf α) (q : Nat) (dims : List Nat) (f : List Nat → α) : Prop :=
  ∃ m', res = .ok (new q dims, m') ∧ Made q dims f m m'

theorem shows_of {m : Buf α} {x : View} {X : List Nat → α} (h : ∀ ix ∈ allIndices x.dims, x.val m ix = some (X ix)) : Shows m x X :=
  fun ix hix => h ix (mem_allIndices.2 hix)

theorem outside_of {q n : Nat} {x : View} (h : ∀ ix ∈ allIndices x.dims, x.cell ix < q ∨ q + n ≤ x.cell ix) : Outside q n x :=
  fun ix hix => h ix (mem_allIndices.2 hix)

theorem new_WF (q : Nat) (dims : List Nat) : (new q dims).WF := by simp [View.WF, new, rmStrides_length]

theorem new_distinct (q : Nat) (dims : List Nat) : (new q dims).Distinct := by
  intro ix jx h1 h2 e
  have h1 : InRange ix dims := h1
  have h2 : InRange jx dims := h2
  rw [new_cell q h1, new_cell q h2] at e
  exact position_inj h1 h2 (by omega)

theorem new_nonzero (q : Nat) (dims : List Nat) : (new q dims).strides = [] ∨ ∃ s ∈ (new q dims).strides, s ≠ 0 := by
  rcases List.eq_nil_or_concat dims with h | ⟨l, d, h⟩
  · left; rw [h]; rfl
  · right
    refine ⟨1, ?_, by omega⟩
    rw [h]
    simp only [new]
    clear h
    induction l with
    | nil => simp [rmStrides_cons]
    | cons a l ih => simp only [List.concat_eq_append, List.cons_append, rmStrides_cons] at ih ⊢; exact List.mem_cons_of_mem _ ih

theorem cell_ne {q : Nat} {dims ix : List Nat} (h : InRange ix dims) {c : Nat} (hc : c < q ∨ q + dims.prod ≤ c) :
    c ≠ (new q dims).cell ix := by
  have := position_lt h
  rw [new_cell q h]
  omega

theorem made_alloc {q : Nat} {dims : List Nat} {F : List Nat → α} {m m' : Buf α} (h : Made q dims F m m') : (new q dims).Alloc m' := by
  intro ix hix
  have := h.1 ix hix
  rw [View.val] at this
  rw [this]; rfl

theorem made_upd {q : Nat} {dims : List Nat} {F G : List Nat → α} {g : List Nat → Option α} {m m1 m2 : Buf α}
    (h : Made q dims F m m1) (hu : Updated (new q dims) g m1 m2) (hg : ∀ ix, InRange ix dims → g ix = some (G ix)) :
    Made q dims G m m2 := by
  refine ⟨fun ix hix => ?_, fun c hc => ?_⟩
  · rw [View.val, hu.1 ix hix, hg ix hix]
  · rw [hu.2 c fun ix hix => cell_ne hix hc, h.2 c hc]

theorem made_shows {q : Nat} {dims : List Nat} {F X : List Nat → α} {m m1 : Buf α} {x : View} (h : Made q dims F m m1)
    (ho : Outside q dims.prod x) (hx : Shows m x X) : Shows m1 x X := by
  intro ix hix
  rw [View.val, h.2 _ (ho ix hix)]
  exact hx ix hix

theorem shows_alloc {m : Buf α} {x : View} {X : List Nat → α} (h : Shows m x X) : x.Alloc m := by
  intro ix hix
  have := h ix hix
  rw [View.val] at this
  rw [this]; rfl

theorem outside_apart {q : Nat} {dims : List Nat} {x : View} (h : Outside q dims.prod x) : (new q dims).Apart x := by
  intro ix jx h1 h2 e
  have h1 : InRange ix dims := h1
  have h3 := position_lt h1
  have h4 := h jx h2
  rw [new_cell q h1] at e
  omega

theorem outside_aligned {q : Nat} {dims : List Nat} {x : View} (h : Outside q dims.prod x) : (new q dims).Aligned x :=
  fun ix jx h1 h2 e => absurd e (outside_apart h ix jx h1 h2)

theorem made_zero [Zero α] (q : Nat) (dims : List Nat) (m : Buf α) : Made q dims (fun _ => 0) m (allocZero m q (asize dims)) := by
  refine ⟨fun ix hix => ?_, fun c hc => zero_out m q c hc⟩
  rw [View.val, new_cell q hix, zero_val m q hix]

theorem copy_ok [Zero α] (q : Nat) (x : View) (hx : x.WF) (hs : ∀ s ∈ rmStrides x.dims, s < intMax) (m : Buf α) (X : List Nat → α)
    (hX : Shows m x X) (ho : Outside q x.dims.prod x) : Gives (copy q x m) m q x.dims X := by
  have h0 := made_zero (α := α) q x.dims m
  have h1 := made_shows h0 ho hX
  obtain ⟨m', e, hu⟩ := assign_core (new q x.dims) x (new_WF q _) hx rfl hs (new_nonzero q _) (new_distinct q _) (outside_apart ho)
    _ (made_alloc h0) (shows_alloc h1)
  exact ⟨m', by rw [copy, e]; rfl, made_upd h0 hu h1⟩

theorem addTimes_ok [Add α] [Mul α] (c : α) {q : Nat} {x : View} (hx : x.WF) {m m1 : Buf α} {F X : List Nat → α}
    (h : Made q x.dims F m m1) (hX : Shows m x X) (ho : Outside q x.dims.prod x) :
    ∃ m2, addTimes (new q x.dims) x c m1 = .ok m2 ∧ Made q x.dims (fun ix => F ix + c * X ix) m m2 := by
  have h1 := made_shows h ho hX
  obtain ⟨m', e, hu⟩ := C17_add_scaled (fun a b => a + c * b) (new q x.dims) x (new_WF q _) hx rfl (new_distinct q _)
    (outside_aligned ho) m1 (made_alloc h) (shows_alloc h1)
  refine ⟨m', ?_, made_upd h hu fun ix hix => ?_⟩
  · simp only [addTimes, new, decide_true, Res.assrt_true, Res.ok_bind]
    exact e
  · rw [h.1 ix hix, h1 ix hix]; rfl

theorem addScalar_ok (f : α → α) {q : Nat} {dims : List Nat} (hne : dims ≠ []) (hs : ∀ s ∈ rmStrides dims, s < intMax) {m m1 : Buf α}
    {F : List Nat → α} (h : Made q dims F m m1) :
    ∃ m2, (new q dims).addScalar f m1 = .ok m2 ∧ Made q dims (fun ix => f (F ix)) m m2 := by
  obtain ⟨m', e, hu⟩ := C20_add_scalar_partial f (new q dims) (new_WF q _) hs hne (new_distinct q _) m1 (made_alloc h)
  refine ⟨m', e, made_upd h hu fun ix hix => ?_⟩
  rw [h.1 ix hix]; rfl

/-- The loop nests of `zip` visit the indices in row-major order. -/
theorem zipLoops_eq (f : Nat → Nat → Nat → Buf α → Res (Buf α)) : ∀ (ns xs ys zs : List Nat), xs.length = ns.length →
    ys.length = ns.length → zs.length = ns.length → ∀ (a b c : Nat) (m : Buf α),
    zipLoops f ns xs ys zs a b c m =
      Res.forM (allIndices ns) m fun m ix => f (a + dot xs ix) (b + dot ys ix) (c + dot zs ix) m := by
  intro ns
  induction ns with
  | nil =>
    intro xs ys zs h1 h2 h3 a b c m
    rw [List.length_eq_zero_iff.1 h1, List.length_eq_zero_iff.1 h2, List.length_eq_zero_iff.1 h3]
    simp only [zipLoops, allIndices, Res.forM_cons, Res.forM_nil]
    show f a b c m = f (a + 0) (b + 0) (c + 0) m >>= fun m => .ok m
    cases f a b c m <;> rfl
  | cons n ns ih =>
    intro xs ys zs h1 h2 h3 a b c m
    match xs, ys, zs, h1, h2, h3 with
    | x :: xs, y :: ys, z :: zs, h1, h2, h3 =>
      simp only [zipLoops, allIndices]
      rw [forM_flatMap]
      unfold loop
      refine forM_congr (fun i _ s => ?_) m
      dsimp only
      rw [ih xs ys zs (by simpa using h1) (by simpa using h2) (by simpa using h3), forM_map]
      refine forM_congr (fun ix _ s => ?_) s
      simp only [dot_cons]
      rw [show a + i * x + dot xs ix = a + (x * i + dot xs ix) by rw [Nat.mul_comm]; omega,
        show b + i * y + dot ys ix = b + (y * i + dot ys ix) by rw [Nat.mul_comm]; omega,
        show c + i * z + dot zs ix = c + (z * i + dot zs ix) by rw [Nat.mul_comm]; omega]

theorem zip3_eq (x y z : View) (hx : x.WF) (hy : y.WF) (hz : z.WF) (hxy : x.dims = y.dims) (hxz : x.dims = z.dims) (hne : x.dims ≠ [])
    (f : Nat → Nat → Nat → Buf α → Res (Buf α)) (m : Buf α) :
    zip3 x y z f m = Res.forM (allIndices x.dims) m fun m ix => f (x.cell ix) (y.cell ix) (z.cell ix) m := by
  have hx' : x.strides.length = x.dims.length := hx
  have hy' : y.strides.length = x.dims.length := by rw [hxy]; exact hy
  have hz' : z.strides.length = x.dims.length := by rw [hxz]; exact hz
  unfold zip3
  rw [decide_eq_true hxy, decide_eq_true hxz, Res.assrt_true, Res.ok_bind, Res.ok_bind,
    if_neg (fun h => hne (List.length_eq_zero_iff.1 h))]
  split
  · exact zipLoops_eq f _ _ _ _ hx' hy' hz' _ _ _ m
  · rw [foreachIndex_eq hne, Res.ok_bind]
    refine forM_congr (fun ix hix s => ?_) m
    have hl := (mem_allIndices.1 hix).length
    simp only [View.addr, offs_eq x.strides ix (by omega), offs_eq y.strides ix (by omega), offs_eq z.strides ix (by omega), Res.ok_bind,
      View.cell]

theorem readBlock_ok (m : Buf α) : ∀ (n o : Nat) (f : Nat → α), (∀ i, i < n → m (o + i) = some (f i)) →
    readBlock m o n = .ok ((List.range n).map f) := by
  intro n
  induction n with
  | zero => intros; rfl
  | succ n ih =>
    intro o f h
    have h0 := h 0 (by omega)
    rw [Nat.add_zero] at h0
    rw [readBlock, Buf.read, h0]
    rw [show (List.range (n + 1)).map f = f 0 :: (List.range n).map (fun i => f (i + 1)) by
      rw [List.range_succ_eq_map, List.map_cons, List.map_map]; rfl]
    simp only [Res.ok_bind]
    rw [ih (o + 1) (fun i => f (i + 1)) fun i hi => by
      have := h (i + 1) (by omega)
      rwa [show o + 1 + i = o + (i + 1) by omega]]
    rfl

end TFun
end Cnine
