import Verif.Model.Construct
import Verif.Props.Assign
import Verif.Props.View
import Verif.Lemmas.RView

/-! # C153 constructors of tensors; C154 nested lists; C155, C156 stacking -/

namespace Cnine

variable {α : Type}

namespace View

/-- Cell `ix` of a new row-major tensor. -/
theorem new_cell (q : Nat) {dims ix : List Nat} (h : InRange ix dims) : (new q dims).cell ix = q + position dims ix := by
  simp [new, View.cell, dot_rmStrides _ _ h.length]

/-- A new tensor of shape `dims` at `q` that shows `f`; nothing outside its block changed. -/
def Made (q : Nat) (dims : List Nat) (f : List Nat → α) (m m' : Buf α) : Prop :=
  (∀ ix, InRange ix dims → (new q dims).val m' ix = some (f ix)) ∧ ∀ c, c < q ∨ q + dims.prod ≤ c → m' c = m c

/-- Filling the block cell by cell. -/
theorem fillBlock_ok (f : Nat → α) (q N : Nat) (m : Buf α) (h : ∀ i, i < N → (m (q + i)).isSome) :
    ∃ m', fillBlock f q N m = .ok m' ∧ (∀ i, i < N → m' (q + i) = some (f i)) ∧ ∀ c, c < q ∨ q + N ≤ c → m' c = m c := by
  obtain ⟨m', h1, h2, h3⟩ := loop_cells N (fun i => q + i) f (fun i m => m.write (q + i) (f i)) m
    (fun i _ j _ e => by omega) h (fun i _ m _ => rfl)
  exact ⟨m', h1, h2, fun c hc => h3 c fun i hi => by omega⟩

theorem made_of_block (q : Nat) (dims : List Nat) (f : Nat → α) (m m' : Buf α)
    (h1 : ∀ i, i < dims.prod → m' (q + i) = some (f i)) (h2 : ∀ c, c < q ∨ q + dims.prod ≤ c → m' c = m c) :
    Made q dims (fun ix => f (position dims ix)) m m' := by
  refine ⟨fun ix hix => ?_, h2⟩
  rw [View.val, new_cell q hix]
  exact h1 _ (position_lt hix)

theorem raw_isSome (junk : Nat → α) (m : Buf α) (q N : Nat) : ∀ i, i < N → (allocRaw junk m q N (q + i)).isSome := by
  intro i hi
  rw [allocRaw, if_pos (by omega)]; rfl

theorem raw_fill (f junk : Nat → α) (q : Nat) (dims : List Nat) (m : Buf α) :
    ∃ m', fillBlock f q (asize dims) (allocRaw junk m q (asize dims)) = .ok m' ∧ Made q dims (fun ix => f (position dims ix)) m m' := by
  obtain ⟨m', h1, h2, h3⟩ := fillBlock_ok f q (asize dims) _ (raw_isSome junk m q (asize dims))
  rw [asize_eq] at h1 h2 h3 ⊢
  refine ⟨m', h1, made_of_block q dims f m m' h2 fun c hc => ?_⟩
  rw [h3 c hc, allocRaw, if_neg (by omega)]

/-! ## C153 -/

section
variable [Zero α] [One α] (cast : Nat → α) (gauss junk : Nat → α)

/-- `zero(dims)`: all elements 0. -/
theorem C153_zero (q : Nat) (dims : List Nat) (m : Buf α) :
    ∃ m', zeroT cast gauss junk q dims m = .ok (new q dims, m') ∧ Made q dims (fun _ => 0) m m' := by
  refine ⟨_, rfl, made_of_block q dims (fun _ => 0) m _ (fun i hi => ?_) fun c hc => ?_⟩
  · rw [allocZero, asize_eq, if_pos (by omega)]
  · rw [allocZero, asize_eq, if_neg (by omega)]

/-- `ones(dims)`: all elements 1, whatever was in the memory before. -/
theorem C153_ones (q : Nat) (dims : List Nat) (m : Buf α) :
    ∃ m', onesT cast gauss junk q dims m = .ok (new q dims, m') ∧ Made q dims (fun _ => 1) m m' := by
  obtain ⟨m', h1, h2⟩ := raw_fill (fun _ => 1) junk q dims m
  refine ⟨m', ?_, h2⟩
  rw [onesT, ofCode]
  simp [h1]

/-- `sequential(dims)`: each element is its own row-major position. -/
theorem C153_sequential (q : Nat) (dims : List Nat) (m : Buf α) :
    ∃ m', seqT cast gauss junk q dims m = .ok (new q dims, m') ∧ Made q dims (fun ix => cast (position dims ix)) m m' := by
  obtain ⟨m', h1, h2⟩ := raw_fill cast junk q dims m
  refine ⟨m', ?_, h2⟩
  rw [seqT, ofCode]
  simp [h1]

/-- `gaussian(dims)`: the values drawn, in row-major order. -/
theorem C153_gaussian (q : Nat) (dims : List Nat) (m : Buf α) :
    ∃ m', ofCode cast gauss junk 4 q dims m = .ok (new q dims, m') ∧ Made q dims (fun ix => gauss (position dims ix)) m m' := by
  obtain ⟨m', h1, h2⟩ := raw_fill gauss junk q dims m
  refine ⟨m', ?_, h2⟩
  rw [ofCode]
  simp [h1]

/-- Any other fill code leaves the block uninitialised. -/
theorem C153_raw (code : Int) (hc : code < 0 ∨ code = 1 ∨ 4 < code) (q : Nat) (dims : List Nat) (m : Buf α) :
    ∃ m', ofCode cast gauss junk code q dims m = .ok (new q dims, m') ∧
      Made q dims (fun ix => junk (q + position dims ix)) m m' := by
  refine ⟨allocRaw junk m q (asize dims), ?_, made_of_block q dims (fun i => junk (q + i)) m _ (fun i hi => ?_) fun c hc => ?_⟩
  · rw [ofCode]
    simp only
    rw [if_neg (by omega)]
    split
    · rfl
    · split
      · rw [if_neg (by omega), if_neg (by omega), if_neg (by omega)]; rfl
      · rfl
  · rw [allocRaw, asize_eq, if_pos (by omega)]
  · rw [allocRaw, asize_eq, if_neg (by omega)]

end

/-- A tensor filled with a constant. -/
theorem C153_constant [Zero α] (v : α) (q : Nat) (dims : List Nat) (m : Buf α) :
    ∃ m', constT v q dims m = .ok (new q dims, m') ∧ Made q dims (fun _ => v) m m' := by
  obtain ⟨m', h1, h2, h3⟩ := fillBlock_ok (fun _ => v) q (asize dims) (allocZero m q (asize dims))
    (fun i hi => by rw [allocZero, if_pos (by omega)]; rfl)
  refine ⟨m', by rw [constT, h1]; rfl, made_of_block q dims (fun _ => v) m m' (by rwa [asize_eq] at h2) fun c hc => ?_⟩
  rw [h3 c (by rwa [asize_eq]), allocZero, asize_eq, if_neg (by omega)]

theorem new_setAt (q : Nat) (dims ix : List Nat) (h : ix.length = dims.length) (x : α) (m : Buf α) :
    (new q dims).setAt ix x m = m.write (q + position dims ix) x := by
  rw [setAt, new, offs_eq _ _ (by rw [h, rmStrides_length]), Res.ok_bind, dot_rmStrides _ _ h]

theorem zero_val [Zero α] (m : Buf α) (q : Nat) {dims ix : List Nat} (h : InRange ix dims) :
    allocZero m q (asize dims) (q + position dims ix) = some 0 := by
  have := position_lt h
  rw [allocZero, asize_eq, if_pos (by omega)]

theorem zero_out [Zero α] (m : Buf α) (q c : Nat) {dims : List Nat} (h : c < q ∨ q + dims.prod ≤ c) :
    allocZero m q (asize dims) c = m c := by
  rw [allocZero, asize_eq, if_neg (by omega)]

/-- `identity`: ones on the diagonal, zeroes elsewhere. -/
theorem C153_identity [Zero α] [One α] (q n : Nat) (m : Buf α) :
    ∃ m', identityT q [n, n] m = .ok (new q [n, n], m') ∧
      Made q [n, n] (fun ix => if ix.getD 0 0 = ix.getD 1 0 then 1 else 0) m m' := by
  have hr : ∀ i, i < n → InRange [i, i] [n, n] := fun i hi => by simp [InRange, hi]
  obtain ⟨m', h1, h2, h3⟩ := loop_cells n (fun i => q + position [n, n] [i, i]) (fun _ => (1 : α))
    (fun i m => (new q [n, n]).setAt [i, i] 1 m) (allocZero m q (asize [n, n]))
    (fun i hi j hj e => by
      have := position_inj (hr i hi) (hr j hj) (by omega)
      simpa using this)
    (fun i hi => by rw [zero_val m q (hr i hi)]; rfl)
    (fun i hi m _ => new_setAt q [n, n] [i, i] rfl 1 m)
  refine ⟨m', ?_, fun ix hix => ?_, fun c hc => ?_⟩
  · simp only [identityT, List.length_cons, List.length_nil]
    rw [show Res.get [n, n] 0 = .ok n from rfl, show Res.get [n, n] 1 = .ok n from rfl]
    simp [h1]
  · rw [View.val, new_cell q hix]
    match ix, hix.length with
    | [i, j], _ =>
      have hij : i < n ∧ j < n := by simpa [InRange] using hix
      by_cases e : i = j
      · subst e; simpa using h2 i hij.1
      · rw [h3 _ fun k hk e' => e ?_, zero_val m q hix]
        · simp [e]
        · have := position_inj hix (hr k hk) (by omega)
          simp at this; omega
  · rw [h3 c fun i hi => ?_, zero_out m q c hc]
    have := position_lt (hr i hi); omega

/-- `identity` of anything but a square matrix is refused. -/
theorem C153_identity_refuses [Zero α] [One α] (q : Nat) (dims : List Nat) (h : ¬ ∃ n, dims = [n, n]) (m : Buf α) :
    identityT q dims m = .throw := by
  match dims with
  | [] => rfl
  | [_] => rfl
  | [a, b] =>
    have : a ≠ b := fun e => h ⟨a, by rw [e]⟩
    simp only [identityT, List.length_cons, List.length_nil]
    rw [show Res.get [a, b] 0 = .ok a from rfl, show Res.get [a, b] 1 = .ok b from rfl]
    simp [this]
  | a :: b :: c :: l => simp [identityT]

/-- `unit(n,i)`: a one at position `i`, zeroes elsewhere. -/
theorem C153_unit [Zero α] [One α] (q n i : Nat) (hi : i < n) (m : Buf α) :
    ∃ m', unitT q n i m = .ok (new q [n], m') ∧ Made q [n] (fun ix => if ix = [i] then 1 else 0) m m' := by
  have hr : InRange [i] [n] := by simp [InRange, hi]
  refine ⟨_, by rw [unitT, new_setAt q [n] [i] rfl, Buf.write, zero_val m q hr]; rfl, fun ix hix => ?_, fun c hc => ?_⟩
  · rw [View.val, new_cell q hix]
    by_cases e : ix = [i]
    · simp [e]
    · have : ¬ (q + position [n] ix = q + position [n] [i]) := fun h => e (position_inj hix hr (by omega))
      simp only [if_neg this, if_neg e]
      exact zero_val m q hix
  · have := position_lt hr
    have : ¬ (c = q + position [n] [i]) := by omega
    simp only [if_neg this]
    exact zero_out m q c hc

/-- A loop with a counter. -/
theorem forM_count {β : Type} (g : Nat → β → Buf α → Res (Buf α)) (l : List β) (k : Nat) (m : Buf α) :
    Res.forM l (k, m) (fun p x => do let m ← g p.1 x p.2; .ok (p.1 + 1, m)) =
      (Res.forM (l.zipIdx k) m (fun m p => g p.2 p.1 m) >>= fun m => .ok (k + l.length, m)) := by
  induction l generalizing k m with
  | nil => rfl
  | cons a l ih =>
    rw [Res.forM_cons, List.zipIdx_cons, Res.forM_cons]
    cases h : g k a m with
    | ok m1 =>
      simp only [Res.ok_bind]
      rw [ih]
      simp only [List.length_cons]
      rw [show k + 1 + l.length = k + (l.length + 1) by omega]
    | throw => rfl
    | ub => rfl

theorem mem_zipIdx0 {β : Type} {l : List β} {p : β × Nat} : p ∈ l.zipIdx 0 ↔ l[p.2]? = some p.1 := by
  rw [List.mem_zipIdx_iff_getElem?]

theorem nodup_zipIdx {β : Type} (l : List β) (k : Nat) : (l.zipIdx k).Nodup := by
  apply List.Nodup.of_map Prod.snd
  rw [List.zipIdx_map_snd]
  exact List.nodup_range'

/-- `vec(list)`, `init(list)`: the listed values in order. -/
theorem C153_vec [Zero α] (q : Nat) (l : List α) (hl : l ≠ []) (m : Buf α) :
    ∃ m', vecT q l m = .ok (new q [l.length], m') ∧
      (∀ i (h : i < l.length), (new q [l.length]).val m' [i] = some l[i]) ∧
      ∀ c, c < q ∨ q + l.length ≤ c → m' c = m c := by
  have hpos : 0 < l.length := List.length_pos_iff.2 hl
  have hr : ∀ i, i < l.length → InRange [i] [l.length] := fun i hi => by simp [InRange, hi]
  have hlt : ∀ p ∈ l.zipIdx 0, p.2 < l.length := fun p hp => by
    rw [mem_zipIdx0] at hp; exact (List.getElem?_eq_some_iff.1 hp).1
  obtain ⟨m', h1, h2, h3⟩ := cells_run (l.zipIdx 0) (fun p => q + position [l.length] [p.2]) (fun p => p.1)
    (fun m p => (new q [l.length]).setAt [p.2] p.1 m) (allocZero m q (asize [l.length])) (nodup_zipIdx l 0)
    (fun p hp p' hp' e => by
      have := position_inj (hr _ (hlt p hp)) (hr _ (hlt p' hp')) (by omega)
      have e2 : p.2 = p'.2 := by simpa using this
      rw [mem_zipIdx0] at hp hp'
      rw [e2, hp'] at hp
      exact Prod.ext (by simpa using hp.symm) e2)
    (fun p hp => by rw [zero_val m q (hr _ (hlt p hp))]; rfl)
    (fun p hp m _ => new_setAt q [l.length] [p.2] rfl p.1 m)
  refine ⟨m', ?_, fun i hi => ?_, fun c hc => ?_⟩
  · simp only [vecT, hpos, decide_true, Res.assrt_true, Res.ok_bind]
    rw [forM_count (fun i x m => (new q [l.length]).setAt [i] x m), h1]; rfl
  · rw [View.val, new_cell q (hr i hi)]
    exact h2 (l[i], i) (mem_zipIdx0.2 (List.getElem?_eq_getElem hi))
  · rw [h3 c fun p hp => ?_, zero_out m q c (by simpa using hc)]
    have := position_lt (hr _ (hlt p hp))
    simp only [List.prod_cons, List.prod_nil] at this
    omega

/-- An empty list is refused. -/
theorem C153_vec_refuses [Zero α] (q : Nat) (m : Buf α) : vecT q [] m = .throw ∧ matT q [] m = .throw := ⟨rfl, rfl⟩

/-- A list of equally long rows: the matrix of the listed values. -/
theorem C153_matrix [Zero α] (q : Nat) (l : List (List α)) (hl : l ≠ []) (w : Nat) (hw : ∀ r ∈ l, r.length = w) (m : Buf α) :
    ∃ m', matT q l m = .ok (new q [l.length, w], m') ∧
      (∀ i (h : i < l.length) j (h' : j < l[i].length), (new q [l.length, w]).val m' [i, j] = some l[i][j]) ∧
      ∀ c, c < q ∨ q + l.length * w ≤ c → m' c = m c := by
  have hpos : 0 < l.length := List.length_pos_iff.2 hl
  have h0 : l[0].length = w := hw _ (List.getElem_mem hpos)
  have hr : ∀ i, i < l.length → ∀ j, j < w → InRange [i, j] [l.length, w] := fun i hi j hj => by simp [InRange, hi, hj]
  have hlt : ∀ p ∈ l.zipIdx 0, p.2 < l.length := fun p hp => by
    rw [mem_zipIdx0] at hp; exact (List.getElem?_eq_some_iff.1 hp).1
  have hmem : ∀ p ∈ l.zipIdx 0, p.1 ∈ l := fun p hp => by
    rw [mem_zipIdx0] at hp; exact List.mem_of_getElem? hp
  obtain ⟨m', h1, h2, h3⟩ := forM_regions (l.zipIdx 0)
    (fun m p => Res.forM (p.1.zipIdx 0) m (fun m s => (new q [l.length, w]).setAt [p.2, s.2] s.1 m))
    (fun p c => ∃ j, j < w ∧ c = q + position [l.length, w] [p.2, j])
    (fun p c => p.1[c - (q + position [l.length, w] [p.2, 0])]?) (allocZero m q (asize [l.length, w])) (nodup_zipIdx l 0)
    (by
      rintro p hp p' hp' hne c ⟨j, hj, rfl⟩ ⟨j', hj', e⟩
      apply hne
      have := position_inj (hr _ (hlt p hp) j hj) (hr _ (hlt p' hp') j' hj') (by omega)
      have e2 : p.2 = p'.2 := by simpa using (List.cons.inj this).1
      rw [mem_zipIdx0] at hp hp'
      rw [e2, hp'] at hp
      exact Prod.ext (by simpa using hp.symm) e2)
    (by
      intro p hp m1 hm1
      have hp2 := hlt p hp
      have hpw := hw _ (hmem p hp)
      have hlt' : ∀ s ∈ p.1.zipIdx 0, s.2 < w := fun s hs => by
        rw [mem_zipIdx0] at hs; rw [← hpw]; exact (List.getElem?_eq_some_iff.1 hs).1
      obtain ⟨m2, g1, g2, g3⟩ := cells_run (p.1.zipIdx 0) (fun s => q + position [l.length, w] [p.2, s.2]) (fun s => s.1)
        (fun m s => (new q [l.length, w]).setAt [p.2, s.2] s.1 m) m1 (nodup_zipIdx p.1 0)
        (fun s hs s' hs' e => by
          have := position_inj (hr _ hp2 _ (hlt' s hs)) (hr _ hp2 _ (hlt' s' hs')) (by omega)
          have e2 : s.2 = s'.2 := by simpa using this
          rw [mem_zipIdx0] at hs hs'
          rw [e2, hs'] at hs
          exact Prod.ext (by simpa using hs.symm) e2)
        (fun s hs => by
          rw [hm1 _ ?_, zero_val m q (hr _ hp2 _ (hlt' s hs))]
          · rfl
          · rintro p' hp' hne ⟨j, hj, e⟩
            apply hne
            have := position_inj (hr _ hp2 _ (hlt' s hs)) (hr _ (hlt p' hp') j hj) (by omega)
            have e2 : p.2 = p'.2 := by simpa using (List.cons.inj this).1
            rw [mem_zipIdx0] at hp hp'
            rw [← e2, hp] at hp'
            exact Prod.ext (by simpa using hp'.symm) e2.symm)
        (fun s hs m _ => new_setAt q [l.length, w] [p.2, s.2] rfl s.1 m)
      refine ⟨m2, g1, ?_, ?_⟩
      · rintro c ⟨j, hj, rfl⟩
        have hj' : j < p.1.length := by omega
        rw [g2 (p.1[j], j) (mem_zipIdx0.2 (List.getElem?_eq_getElem hj'))]
        rw [show q + position [l.length, w] [p.2, j] - (q + position [l.length, w] [p.2, 0]) = j by
          simp [position]; omega, List.getElem?_eq_getElem hj']
      · intro c hc
        exact g3 c fun s hs e => hc ⟨s.2, hlt' s hs, e⟩)
  refine ⟨m', ?_, fun i hi j hj => ?_, fun c hc => ?_⟩
  · simp only [matT, hpos, decide_true, Res.assrt_true, Res.ok_bind]
    rw [show Res.get l 0 = .ok l[0] by simp [Res.get, List.getElem?_eq_getElem hpos], Res.ok_bind, h0]
    have key : ∀ (ls : List (List α)) k m, Res.forM ls (k, m) (fun p r => do
          let s ← Res.forM r (0, p.2) fun s x => do
            let m ← (new q [l.length, w]).setAt [p.1, s.1] x s.2
            .ok (s.1 + 1, m)
          .ok (p.1 + 1, s.2)) = Res.forM ls (k, m) (fun p r => do
          let m ← Res.forM (r.zipIdx 0) p.2 (fun m s => (new q [l.length, w]).setAt [p.1, s.2] s.1 m)
          .ok (p.1 + 1, m)) := by
      intro ls k m
      congr 1
      funext p r
      rw [forM_count (fun j x m => (new q [l.length, w]).setAt [p.1, j] x m)]
      cases Res.forM (r.zipIdx 0) p.2 (fun m s => (new q [l.length, w]).setAt [p.1, s.2] s.1 m) <;> rfl
    rw [key, forM_count (fun i (r : List α) m => Res.forM (r.zipIdx 0) m (fun m s => (new q [l.length, w]).setAt [i, s.2] s.1 m)), h1]
    rfl
  · have hjw : j < w := by rw [← hw _ (List.getElem_mem hi)]; exact hj
    rw [View.val, new_cell q (hr i hi j hjw)]
    rw [h2 (l[i], i) (mem_zipIdx0.2 (List.getElem?_eq_getElem hi)) _ ⟨j, hjw, rfl⟩]
    simp only
    rw [show q + position [l.length, w] [i, j] - (q + position [l.length, w] [i, 0]) = j by
          simp [position]; omega, List.getElem?_eq_getElem hj]
  · rw [h3 c ?_, zero_out m q c (by simpa using hc)]
    rintro p hp ⟨j, hj, e⟩
    have := position_lt (hr _ (hlt p hp) j hj)
    simp only [List.prod_cons, List.prod_nil, Nat.mul_one] at this
    omega

example : ((matT 2 [[5, 6, 7], [8, 9, 10]] (Buf.ofList [1, 1])).bind fun p => .ok (p.1, (List.range 9).map p.2)) =
    .ok (⟨2, [2, 3], [3, 1]⟩, [some 1, some 1, some 5, some 6, some 7, some 8, some 9, some 10, none]) := by decide
example : ((identityT 1 [2, 2] (Buf.ofList [7])).bind fun p => .ok ((List.range 6).map p.2)) =
    .ok [some 7, some 1, some 0, some 0, some 1, none] := by decide
example : ((seqT id id (fun _ => 99) 1 [2, 2] (Buf.ofList [7])).bind fun p => .ok ((List.range 6).map p.2)) =
    .ok [some 7, some 0, some 1, some 2, some 3, none] := by decide

example : ((unitT 1 3 2 (Buf.ofList [7])).bind fun p => .ok (p.1, (List.range 5).map p.2)) =
    .ok (⟨1, [3], [1]⟩, [some 7, some 0, some 0, some 1, none]) := by decide
example : ((vecT 1 [4, 5] (Buf.ofList [7])).bind fun p => .ok (p.1, (List.range 4).map p.2)) =
    .ok (⟨1, [2], [1]⟩, [some 7, some 4, some 5, none]) := by decide
example : ((onesT id id (fun _ => 99) 1 [1, 2] (Buf.ofList [7])).bind fun p => .ok ((List.range 4).map p.2)) =
    .ok [some 7, some 1, some 1, none] := by decide
example : ((constT 8 1 [1, 2] (Buf.ofList [7])).bind fun p => .ok ((List.range 4).map p.2)) =
    .ok [some 7, some 8, some 8, none] := by decide

/-! ## C154 -/

/-- A row longer than the first is not refused: its last value lands in the next row, where it is overwritten. -/
theorem C154_ragged_fails : ((matT 0 [[5], [6, 7], [8]] (Buf.ofList [])).bind fun p => .ok (p.1, (List.range 4).map p.2)) =
    .ok (⟨0, [3, 1], [1, 1]⟩, [some 5, some 6, some 8, none]) := by decide

/-- A long last row runs out of the block. -/
theorem C154_overrun_fails : matT 0 [[5], [6, 7]] (Buf.ofList []) = .ub := by rfl

/-- A position outside is not refused by `unit`. -/
theorem C154_unit_fails : unitT 0 2 2 (Buf.ofList ([] : List Nat)) = .ub := by rfl

/-- `Ltensor::ones` leaves the memory uninitialised. -/
theorem C154_ltensor_ones_fails [Zero α] [One α] (cast gauss junk : Nat → α) (q : Nat) (dims : List Nat) (m : Buf α) :
    ∃ m', onesL cast gauss junk q dims m = .ok (new q dims, m') ∧ Made q dims (fun ix => junk (q + position dims ix)) m m' :=
  C153_raw cast gauss junk 1 (by omega) q dims m

/-! ## C155 -/

theorem one_mem_rmStrides : ∀ dims : List Nat, rmStrides dims = [] ∨ ∃ s ∈ rmStrides dims, s ≠ 0 := by
  intro dims
  rcases List.eq_nil_or_concat dims with h | ⟨l, d, h⟩
  · left; simp [h]
  · right
    rw [List.concat_eq_append] at h
    rw [h]
    refine ⟨1, ?_, by omega⟩
    clear h
    induction l with
    | nil => simp [rmStrides_cons]
    | cons e l ih => rw [List.cons_append, rmStrides_cons]; exact List.mem_cons_of_mem _ ih

/-- Size of a view along axis `d`. -/
def ext (d : Nat) (x : View) : Nat := x.dims.getD d 0

theorem ext_split {A B : List Nat} {x : View} {n : Nat} (h : x.dims = A ++ n :: B) : ext A.length x = n := by
  simp [ext, h]

/-- One block of the result receives one operand. -/
theorem stack_step [AddZeroClass α] (q : Nat) (A B : List Nat) (N t n : Nat) (htn : t + n ≤ N)
    (hs : ∀ s ∈ rmStrides (A ++ N :: B), s < intMax) (x : View) (hx : x.WF) (hd : x.dims = A ++ n :: B) (m : Buf α)
    (hxa : x.Alloc m) (hf : ∀ ix, InRange ix x.dims → x.cell ix < q ∨ q + (A ++ N :: B).prod ≤ x.cell ix)
    (h0 : ∀ a j b, InRange a A → j < n → InRange b B → m (q + position (A ++ N :: B) (a ++ (t + j) :: b)) = some 0) :
    ∃ s m', (new q (A ++ N :: B)).slices A.length t n = .ok s ∧ addView (· + ·) s x m = .ok m' ∧
      (∀ a j b, InRange a A → j < n → InRange b B →
        (new q (A ++ N :: B)).val m' (a ++ (t + j) :: b) = x.val m (a ++ j :: b)) ∧
      ∀ c, (∀ a j b, InRange a A → j < n → InRange b B → c ≠ q + position (A ++ N :: B) (a ++ (t + j) :: b)) → m' c = m c := by
  have hr : ∀ a j b, InRange a A → j < n → InRange b B → InRange (a ++ (t + j) :: b) (A ++ N :: B) := fun a j b ha hj hb =>
    (inRange_append ha.length).2 ⟨ha, inRange_cons.2 ⟨by omega, hb⟩⟩
  have hw : (new q (A ++ N :: B)).slices A.length t n =
      .ok ⟨q + B.prod * t, A ++ n :: B, rmStrides (A ++ N :: B)⟩ := by
    obtain ⟨S, hS, hl⟩ : ∃ S, rmStrides (A ++ N :: B) = S ++ B.prod :: rmStrides B ∧ S.length = A.length := by
      clear * -
      induction A with
      | nil => exact ⟨[], by simp [rmStrides_cons], rfl⟩
      | cons e A ih =>
        obtain ⟨S, h1, h2⟩ := ih
        exact ⟨(A ++ N :: B).prod :: S, by rw [List.cons_append, rmStrides_cons, h1]; rfl, by simp [h2]⟩
    simp only [slices, new, gvSet_split, Res.ok_bind]
    rw [hS, ← hl, get_split]; rfl
  have hpos : ∀ a j b, InRange a A → j < n → InRange b B →
      (View.mk (q + B.prod * t) (A ++ n :: B) (rmStrides (A ++ N :: B))).cell (a ++ j :: b) =
        q + position (A ++ N :: B) (a ++ (t + j) :: b) := by
    intro a j b ha hj hb
    obtain ⟨w, h1, h2, h3⟩ := C13_slices (new q (A ++ N :: B)) A.length t n (by simp [new, WF]) (by simp [new]) (by simpa [new] using htn)
    rw [hw] at h1
    cases h1
    have := h3.2 (a ++ j :: b) ((inRange_append ha.length).2 ⟨ha, inRange_cons.2 ⟨hj, hb⟩⟩)
    have hm : (a ++ j :: b).modify A.length (· + t) = a ++ (t + j) :: b := by
      rw [← ha.length, modify_split, Nat.add_comm]
    dsimp only at this
    rw [hm] at this
    rw [this.2, new_cell q (hr a j b ha hj hb)]
  have hsp : ∀ ix, InRange ix (A ++ n :: B) → ∃ a j b, ix = a ++ j :: b ∧ InRange a A ∧ j < n ∧ InRange b B := by
    intro ix h
    obtain ⟨a, j, b, e, -, h1, h2, h3⟩ := inRange_split h
    exact ⟨a, j, b, e, h1, h2, h3⟩
  obtain ⟨m', g1, g2, g3⟩ := C17_add_partial (· + ·) ⟨q + B.prod * t, A ++ n :: B, rmStrides (A ++ N :: B)⟩ x (by simp [WF]) hx hd.symm hs
    (one_mem_rmStrides _)
    (by
      intro ix jx hi hj e
      obtain ⟨a, j, b, rfl, h1, h2, h3⟩ := hsp ix hi
      obtain ⟨a', j', b', rfl, h1', h2', h3'⟩ := hsp jx hj
      rw [hpos a j b h1 h2 h3, hpos a' j' b' h1' h2' h3'] at e
      have := position_inj (hr a j b h1 h2 h3) (hr a' j' b' h1' h2' h3') (by omega)
      obtain ⟨e1, e2⟩ := List.append_inj this (by rw [h1.length, h1'.length])
      simp only [List.cons.injEq] at e2
      rw [e1, e2.2, show j = j' by omega])
    (by
      intro ix jx hi hj e
      obtain ⟨a, j, b, rfl, h1, h2, h3⟩ := hsp ix hi
      rw [hpos a j b h1 h2 h3] at e
      have := position_lt (hr a j b h1 h2 h3)
      have := hf jx hj
      omega)
    m
    (by
      intro ix hi
      obtain ⟨a, j, b, rfl, h1, h2, h3⟩ := hsp ix hi
      rw [hpos a j b h1 h2 h3, h0 a j b h1 h2 h3]; rfl)
    hxa
  refine ⟨_, m', hw, g1, fun a j b ha hj hb => ?_, fun c hc => g3 c fun ix hi => ?_⟩
  · have hi : InRange (a ++ j :: b) (A ++ n :: B) := (inRange_append ha.length).2 ⟨ha, inRange_cons.2 ⟨hj, hb⟩⟩
    have := g2 _ hi
    simp only [View.val, hpos a j b ha hj hb, h0 a j b ha hj hb] at this
    rw [View.val, new_cell q (hr a j b ha hj hb), this]
    have hv := hxa (a ++ j :: b) (by rw [hd]; exact hi)
    obtain ⟨v, e⟩ := Option.isSome_iff_exists.1 hv
    simp [View.val, e]
  · obtain ⟨a, j, b, rfl, h1, h2, h3⟩ := hsp ix hi
    rw [hpos a j b h1 h2 h3]
    exact hc a j b h1 h2 h3

theorem stack_loop [AddZeroClass α] (q : Nat) (A B : List Nat) (N : Nat) (hs : ∀ s ∈ rmStrides (A ++ N :: B), s < intMax)
    (l : List View) (hl : ∀ x ∈ l, x.WF ∧ (∃ n, x.dims = A ++ n :: B) ∧
      ∀ ix, InRange ix x.dims → x.cell ix < q ∨ q + (A ++ N :: B).prod ≤ x.cell ix) :
    ∀ (t : Nat) (_ : t + (l.map (ext A.length)).sum ≤ N) (m : Buf α) (_ : ∀ x ∈ l, x.Alloc m)
    (_ : ∀ a j b, InRange a A → t ≤ j → j < N → InRange b B → m (q + position (A ++ N :: B) (a ++ j :: b)) = some 0),
    ∃ m', Res.forM l (t, m) (fun p x => do
        let n ← Res.get x.dims A.length
        let s ← (new q (A ++ N :: B)).slices A.length p.1 n
        let m ← addView (· + ·) s x p.2
        .ok (p.1 + n, m)) = .ok (t + (l.map (ext A.length)).sum, m') ∧
      (∀ pre x post, l = pre ++ x :: post → ∀ a j b, InRange a A → j < ext A.length x → InRange b B →
        (new q (A ++ N :: B)).val m' (a ++ (t + (pre.map (ext A.length)).sum + j) :: b) = x.val m (a ++ j :: b)) ∧
      ∀ c, (∀ a j b, InRange a A → t ≤ j → j < t + (l.map (ext A.length)).sum → InRange b B →
        c ≠ q + position (A ++ N :: B) (a ++ j :: b)) → m' c = m c := by
  induction l with
  | nil => intro t _ m _ _; exact ⟨m, by simp [Res.forM_nil], by simp, fun _ _ => rfl⟩
  | cons x l ih =>
    intro t ht m hal h0
    obtain ⟨hx, ⟨n, hd⟩, hf⟩ := hl x (List.mem_cons_self ..)
    have hn := ext_split hd
    simp only [List.map_cons, List.sum_cons, hn] at ht ⊢
    obtain ⟨s, m1, h1, h2, h3, h4⟩ := stack_step q A B N t n (by omega) hs x hx hd m (hal x (List.mem_cons_self ..)) hf
      (fun a j b ha hj hb => h0 a (t + j) b ha (by omega) (by omega) hb)
    have hin : ∀ a j b, InRange a A → j < N → InRange b B → InRange (a ++ j :: b) (A ++ N :: B) := fun a j b ha hj hb =>
      (inRange_append ha.length).2 ⟨ha, inRange_cons.2 ⟨hj, hb⟩⟩
    have hsame : ∀ y ∈ l, ∀ ix, InRange ix y.dims → m1 (y.cell ix) = m (y.cell ix) := by
      intro y hy ix hix
      apply h4
      intro a j b ha hj hb e
      have := (hl y (List.mem_cons_of_mem _ hy)).2.2 ix hix
      have := position_lt (hin a (t + j) b ha (by omega) hb)
      omega
    have hother : ∀ a j b, InRange a A → j < t ∨ t + n ≤ j → j < N → InRange b B →
        m1 (q + position (A ++ N :: B) (a ++ j :: b)) = m (q + position (A ++ N :: B) (a ++ j :: b)) := by
      intro a j b ha hj hjN hb
      apply h4
      intro a' j' b' ha' hj' hb' e
      have := position_inj (hin a j b ha hjN hb) (hin a' (t + j') b' ha' (by omega) hb') (by omega)
      obtain ⟨-, e2⟩ := List.append_inj this (by rw [ha.length, ha'.length])
      simp only [List.cons.injEq] at e2
      omega
    obtain ⟨m', g1, g2, g3⟩ := ih (fun y hy => hl y (List.mem_cons_of_mem _ hy)) (t + n) (by omega) m1
      (fun y hy ix hix => by rw [hsame y hy ix hix]; exact hal y (List.mem_cons_of_mem _ hy) ix hix)
      (fun a j b ha hj hjN hb => by rw [hother a j b ha (by omega) hjN hb]; exact h0 a j b ha (by omega) hjN hb)
    refine ⟨m', ?_, ?_, ?_⟩
    · rw [Res.forM_cons]
      simp only
      rw [show Res.get x.dims A.length = .ok n by rw [hd, get_split]]
      simp only [Res.ok_bind, h1, h2]
      rw [g1, Nat.add_assoc]
    · intro pre y post e a j b ha hj hb
      cases pre with
      | nil =>
        simp only [List.nil_append, List.cons.injEq] at e
        obtain ⟨rfl, rfl⟩ := e
        rw [hn] at hj
        simp only [List.map_nil, List.sum_nil, Nat.add_zero]
        have h3' := h3 a j b ha hj hb
        rw [View.val, new_cell q (hin a _ b ha (by omega) hb)] at h3' ⊢
        rw [g3, h3']
        intro a' j' b' ha' hj1 hj2 hb' e
        have := position_inj (hin a _ b ha (by omega) hb) (hin a' j' b' ha' (by omega) hb') (Nat.add_left_cancel e)
        obtain ⟨-, e2⟩ := List.append_inj this (by rw [ha.length, ha'.length])
        simp only [List.cons.injEq] at e2
        omega
      | cons z pre =>
        simp only [List.cons_append, List.cons.injEq] at e
        obtain ⟨rfl, rfl⟩ := e
        have := g2 pre y post rfl a j b ha hj hb
        simp only [List.map_cons, List.sum_cons, hn]
        rw [← Nat.add_assoc, this, View.val, View.val]
        apply hsame y (by simp)
        obtain ⟨-, ⟨k, hk⟩, -⟩ := hl y (by simp)
        rw [hk, ← ext_split hk]
        exact (inRange_append ha.length).2 ⟨ha, inRange_cons.2 ⟨hj, hb⟩⟩
    · intro c hc
      rw [g3 c fun a j b ha h1 h2 hb => hc a j b ha (by omega) (by omega) hb]
      exact h4 c fun a j b ha hj hb => hc a (t + j) b ha (by omega) (by omega) hb

theorem stack_sizes (A B : List Nat) (l : List View) (hl : ∀ x ∈ l, ∃ n, x.dims = A ++ n :: B) (t : Nat) :
    Res.forM l t (fun t x => do
      let n ← Res.get x.dims A.length
      let r ← gvRemove x.dims A.length
      Res.assrt (r = A ++ B)
      .ok (t + n)) = .ok (t + (l.map (ext A.length)).sum) := by
  induction l generalizing t with
  | nil => rfl
  | cons x l ih =>
    obtain ⟨n, hd⟩ := hl x (List.mem_cons_self ..)
    rw [Res.forM_cons]
    simp only [hd, get_split, gvRemove_split, Res.ok_bind, decide_true, Res.assrt_true]
    rw [ih (fun y hy => hl y (List.mem_cons_of_mem _ hy)), List.map_cons, List.sum_cons, ext_split hd, Nat.add_assoc]

/-- Stacking along axis `d` puts the tensors side by side: element `j` of operand `x` along the axis is element
`(total size of the operands before x) + j` of the result; nothing outside the new block changes. -/
theorem C155_stack [AddZeroClass α] (q : Nat) (A B : List Nat) (l : List View) (hne : l ≠ [])
    (hl : ∀ x ∈ l, x.WF ∧ (∃ n, x.dims = A ++ n :: B) ∧ ∀ ix, InRange ix x.dims →
      x.cell ix < q ∨ q + (A ++ (l.map (ext A.length)).sum :: B).prod ≤ x.cell ix)
    (hs : ∀ s ∈ rmStrides (A ++ (l.map (ext A.length)).sum :: B), s < intMax) (m : Buf α) (hal : ∀ x ∈ l, x.Alloc m) :
    ∃ m', stack q A.length l m = .ok (new q (A ++ (l.map (ext A.length)).sum :: B), m') ∧
      (∀ pre x post, l = pre ++ x :: post → ∀ a j b, InRange a A → j < ext A.length x → InRange b B →
        (new q (A ++ (l.map (ext A.length)).sum :: B)).val m' (a ++ ((pre.map (ext A.length)).sum + j) :: b) =
          x.val m (a ++ j :: b)) ∧
      ∀ c, c < q ∨ q + (A ++ (l.map (ext A.length)).sum :: B).prod ≤ c → m' c = m c := by
  have hpos : 0 < l.length := List.length_pos_iff.2 hne
  obtain ⟨n, hn⟩ := (hl _ (List.getElem_mem hpos)).2.1
  have hin : ∀ a j b, InRange a A → j < (l.map (ext A.length)).sum → InRange b B →
      InRange (a ++ j :: b) (A ++ (l.map (ext A.length)).sum :: B) := fun a j b ha hj hb =>
    (inRange_append ha.length).2 ⟨ha, inRange_cons.2 ⟨hj, hb⟩⟩
  obtain ⟨m', h1, h2, h3⟩ := stack_loop q A B (l.map (ext A.length)).sum hs l hl 0 (by omega)
    (allocZero m q (A ++ (l.map (ext A.length)).sum :: B).prod)
    (fun x hx ix hix => by
      have := (hl x hx).2.2 ix hix
      rw [allocZero, if_neg (by omega)]; exact hal x hx ix hix)
    (fun a j b ha _ hj hb => by
      have := position_lt (hin a j b ha hj hb)
      rw [allocZero, if_pos (by omega)])
  refine ⟨m', ?_, ?_, ?_⟩
  · simp only [stack, hpos, decide_true, Res.assrt_true, Res.ok_bind]
    rw [show Res.get l 0 = .ok l[0] by simp [Res.get, List.getElem?_eq_getElem hpos]]
    simp only [Res.ok_bind, hn, gvRemove_split]
    rw [show decide (A.length < (A ++ n :: B).length) = true by simp, Res.assrt_true]
    simp only [Res.ok_bind]
    rw [stack_sizes A B l (fun x hx => (hl x hx).2.1) 0]
    simp only [Res.ok_bind, gvSet_split, Nat.zero_add, asize_eq]
    rw [h1]; rfl
  · intro pre x post e a j b ha hj hb
    have := h2 pre x post e a j b ha hj hb
    rw [Nat.zero_add] at this
    rw [this, View.val, View.val, allocZero, if_neg]
    obtain ⟨-, ⟨k, hk⟩, hf⟩ := hl x (by simp [e])
    have := hf (a ++ j :: b) (by
      rw [hk, ← ext_split hk]; exact (inRange_append ha.length).2 ⟨ha, inRange_cons.2 ⟨hj, hb⟩⟩)
    omega
  · intro c hc
    rw [h3 c, allocZero, if_neg (by omega)]
    intro a j b ha _ hj hb e
    have := position_lt (hin a j b ha (by omega) hb)
    omega

/-- An empty list, an axis out of range, or a later tensor that differs off the axis is refused. -/
theorem C155_stack_refuses [Zero α] [Add α] (q d : Nat) (m : Buf α) :
    stack q d [] m = .throw ∧ (∀ x l, x.dims.length ≤ d → stack q d (x :: l) m = .throw) ∧
    ∀ A B n, d = A.length → ∀ l1 x y l2, (∀ z ∈ x :: l1, ∃ k, z.dims = A ++ k :: B) →
      (∀ k, y.dims ≠ A ++ k :: B) → d < y.dims.length → x.dims = A ++ n :: B → stack q d (x :: l1 ++ y :: l2) m = .throw := by
  refine ⟨rfl, ?_, ?_⟩
  · intro x l h
    simp only [stack, List.length_cons, Nat.zero_lt_succ, decide_true, Res.assrt_true, Res.ok_bind]
    rw [show Res.get (x :: l) 0 = .ok x from rfl, Res.ok_bind, show decide (d < x.dims.length) = false by simp; omega]
    rfl
  · rintro A B n rfl l1 x y l2 hz hy hyl hx
    simp only [stack, List.cons_append, List.length_cons, Nat.zero_lt_succ, decide_true, Res.assrt_true, Res.ok_bind]
    rw [show Res.get (x :: (l1 ++ y :: l2)) 0 = .ok x from rfl]
    simp only [Res.ok_bind, hx, gvRemove_split]
    rw [show decide (A.length < (A ++ n :: B).length) = true by simp, Res.assrt_true]
    simp only [Res.ok_bind]
    rw [← List.cons_append, Res.forM_append, stack_sizes A B _ hz]
    simp only [Res.ok_bind]
    rw [Res.forM_cons]
    obtain ⟨Y, k, Z, e, hY, -⟩ := split_at y.dims A.length hyl
    have hrem : gvRemove y.dims A.length = .ok (Y ++ Z) := by rw [e, ← hY, gvRemove_split]
    have hget : Res.get y.dims A.length = .ok k := by rw [e, ← hY, get_split]
    simp only [hrem, hget, Res.ok_bind]
    rw [show decide (Y ++ Z = A ++ B) = false by
      rw [decide_eq_false_iff_not]
      intro e2
      obtain ⟨rfl, rfl⟩ := List.append_inj e2 hY
      exact hy k e]
    rfl

example : ((stack 6 1 [⟨0, [2, 1], [1, 1]⟩, ⟨2, [2, 2], [2, 1]⟩] (Buf.ofList [1, 2, 3, 4, 5, 6])).bind
    fun p => .ok (p.1, (List.range 13).map p.2)) =
    .ok (⟨6, [2, 3], [3, 1]⟩, [some 1, some 2, some 3, some 4, some 5, some 6,
      some 1, some 3, some 4, some 2, some 5, some 6, none]) := by decide
example : stack 6 1 [⟨0, [2, 1], [1, 1]⟩, ⟨2, [1, 2], [2, 1]⟩] (Buf.ofList [1, 2, 3, 4, 5, 6]) = .throw :=
  (C155_stack_refuses 6 1 _).2.2 [2] [] 1 rfl [] ⟨0, [2, 1], [1, 1]⟩ ⟨2, [1, 2], [2, 1]⟩ []
    (by rintro z hz; simp at hz; subst hz; exact ⟨1, rfl⟩) (by intro k; simp) (by decide) rfl

/-! ## C156 -/

example : stackRefs 2 0 [⟨0, [1, 1], [1, 1]⟩, ⟨1, [1, 1], [1, 1]⟩] (Buf.ofList [1, 2]) = .throw := by rfl

/-- The initializer-list form ignores the axis: asked for axis 1 it stacks along axis 0. -/
theorem C156_init_axis_fails [Zero α] [Add α] (q d : Nat) (l : List View) (m : Buf α) : stackInit q d l m = stack q 0 l m := rfl

theorem C156_init_witness_fails : ((stackInit 2 1 [⟨0, [1, 1], [1, 1]⟩, ⟨1, [1, 1], [1, 1]⟩] (Buf.ofList [1, 2])).bind
    fun p => .ok p.1.dims) = .ok [2, 1] := by decide

/-- The form for references never returns a tensor. -/
theorem C156_refs_fails [Zero α] [Add α] (q : Nat) (A B : List Nat) (l : List View) (hne : l ≠ [])
    (hl : ∀ x ∈ l, ∃ n, x.dims = A ++ n :: B) (m : Buf α) :
    stackRefs q A.length l m = if B = [] then .ub else .throw := by
  obtain ⟨x, l, rfl⟩ := List.exists_cons_of_ne_nil hne
  obtain ⟨n, hx⟩ := hl x (List.mem_cons_self ..)
  simp only [stackRefs, List.length_cons, Nat.zero_lt_succ, decide_true, Res.assrt_true, Res.ok_bind]
  rw [show Res.get (x :: l) 0 = .ok x from rfl]
  simp only [Res.ok_bind, hx, gvRemove_split]
  rw [show decide (A.length < (A ++ n :: B).length) = true by simp, Res.assrt_true]
  simp only [Res.ok_bind]
  rw [stack_sizes A B _ hl 0]
  simp only [Res.ok_bind]
  cases B with
  | nil => simp [gvSet]
  | cons b B =>
    rw [gvSet_split, if_neg (by simp), Res.ok_bind, Res.forM_cons]
    have hget : Res.get (A ++ n :: b :: B) A.length = .ok n := get_split ..
    have hsl : ∃ s, (new q (A ++ (0 + ((x :: l).map (ext A.length)).sum) :: B)).slices A.length 0 n = .ok s ∧
        s.dims = A ++ n :: B := by
      simp only [slices, new, gvSet_split, Res.ok_bind, Res.get]
      rw [List.getElem?_eq_getElem (by simp)]
      exact ⟨_, rfl, rfl⟩
    obtain ⟨s, h1, h2⟩ := hsl
    simp only [hx, hget, Res.ok_bind, h1]
    rw [C17_add_refuses]
    · rfl
    · rw [h2, hx]
      intro e
      have := congrArg List.length e
      simp at this

end View
end Cnine
