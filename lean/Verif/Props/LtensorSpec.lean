import Verif.Model.Ltensor
import Verif.Lemmas.BGtensor

/-! # C75 tensor specifications: splitting dims by labels and joining them again -/

namespace Cnine

variable {α : Type _}

theorem chunk_take (l k : List α) : gvChunk (l ++ k) 0 l.length = .ok l := by
  have h1 : ¬ ((0 : Int) < 0) := by omega
  have h2 : ¬ ((l.length : Int) = -1) := by omega
  have h3 : ¬ ((l.length : Int) < 0) := by omega
  have h4 : ¬ ((0 : Int) < 0 ∨ ((l ++ k).length : Int) < 0 + l.length) := by
    simp only [List.length_append]; omega
  simp only [gvChunk, if_neg h1, if_neg h2, if_neg h3, if_neg h4]
  simp

theorem chunk_drop (l k : List α) : gvChunk (l ++ k) l.length (-1) = .ok k := by
  have h1 : ¬ ((l.length : Int) < 0) := by omega
  simp only [gvChunk, if_neg h1, if_true]
  have h3 : ((l ++ k).length : Int) - (l.length : Int) = (k.length : Int) := by
    simp only [List.length_append]; omega
  rw [h3, if_neg (by omega), if_neg (by simp only [List.length_append]; omega)]
  simp

theorem chunk_drop1 (a : α) (l k : List α) : gvChunk (a :: (l ++ k)) (1 + l.length) (-1) = .ok k :=
  BG.chunk_end a l k

theorem extend_eq (r x : List Int) : LSpec.extend r x = r ++ x := by
  unfold LSpec.extend
  induction x generalizing r with
  | nil => simp
  | cons a x ih => rw [List.foldl_cons, ih]; simp

theorem getDims_eq (s : LSpec) : s.getDims = (if 0 < s.nbatch then [s.nbatch] else []) ++ s.adims ++ s.ddims := by
  unfold LSpec.getDims
  simp only [extend_eq]
  cases s.adims <;> cases s.ddims <;> by_cases h : 0 < s.nbatch <;> simp [h]

/-- The labels fit the dims: a positive batch if there is a batch axis, and the grid within the rank. -/
def LFit (dims : List Int) (l : Labels) : Prop :=
  0 ≤ l.narray ∧ l.nb + l.narray ≤ dims.length ∧ (l.batched = true → ∀ b ∈ dims.head?, 0 < b)

instance (dims : List Int) (l : Labels) : Decidable (LFit dims l) :=
  inferInstanceAs (Decidable (_ ∧ _ ∧ (_ → _)))

/-- The three parts of a list that labels single out: the batch axis, the grid axes and the cell axes. -/
def Parts (l : Labels) (x b g c : List α) : Prop :=
  x = b ++ g ++ c ∧ b.length = l.nb ∧ (g.length : Int) = l.narray

theorem Parts.make {l : Labels} {x : List α} (h0 : 0 ≤ l.narray) (h1 : l.nb + l.narray ≤ x.length) :
    ∃ b g c, Parts l x b g c := by
  have hb : l.nb = 0 ∨ l.nb = 1 := by unfold Labels.nb; split <;> simp
  refine ⟨x.take l.nb.toNat, (x.drop l.nb.toNat).take l.narray.toNat, (x.drop l.nb.toNat).drop l.narray.toNat, ?_, ?_, ?_⟩
  · rw [List.append_assoc, List.take_append_drop, List.take_append_drop]
  · rw [List.length_take]; omega
  · rw [List.length_take, List.length_drop]; omega

theorem Parts.batched {l : Labels} {x b g c : List α} (h : Parts l x b g c) (hb : l.batched = true) :
    ∃ a, b = [a] := by
  obtain ⟨-, h, -⟩ := h
  simp only [Labels.nb, hb, if_true] at h
  exact List.length_eq_one_iff.1 (by omega)

theorem Parts.unbatched {l : Labels} {x b g c : List α} (h : Parts l x b g c) (hb : ¬ l.batched = true) : b = [] := by
  obtain ⟨-, h, -⟩ := h
  simp only [Labels.nb, hb] at h
  exact List.length_eq_zero_iff.1 (by simpa using h)

theorem Parts.gpart {l : Labels} {x b g c : List α} (h : Parts l x b g c) : l.gpart x = .ok g := by
  unfold Labels.gpart
  by_cases hb : l.batched = true
  · obtain ⟨a, rfl⟩ := h.batched hb
    rw [h.1, ← h.2.2]
    simp only [Labels.nb, hb, if_true]
    exact BG.chunk_mid a g c
  · have := h.unbatched hb; subst this
    rw [h.1, ← h.2.2]
    simp only [Labels.nb, hb]
    exact chunk_take g c

theorem Parts.cpart {l : Labels} {x b g c : List α} (h : Parts l x b g c) : l.cpart x = .ok c := by
  unfold Labels.cpart
  by_cases hb : l.batched = true
  · obtain ⟨a, rfl⟩ := h.batched hb
    rw [h.1, ← h.2.2]
    simp only [Labels.nb, hb, if_true]
    exact chunk_drop1 a g c
  · have := h.unbatched hb; subst this
    rw [h.1, ← h.2.2]
    simp only [Labels.nb, hb]
    rw [if_neg (by simp), Int.zero_add]
    exact chunk_drop g c

theorem Parts.bcpart {l : Labels} {x b g c : List α} (h : Parts l x b g c) : l.bcpart x = .ok (b ++ c) := by
  unfold Labels.bcpart
  by_cases hb : l.batched = true
  · obtain ⟨a, rfl⟩ := h.batched hb
    rw [h.1, ← h.2.2]
    simp only [hb, Bool.not_true, Bool.false_eq_true, if_false]
    show (gvChunk (a :: (g ++ c)) (1 + g.length) (-1) >>= _) = _
    rw [chunk_drop1]
    rfl
  · have := h.unbatched hb; subst this
    rw [h.1, ← h.2.2]
    simp only [Bool.not_eq_true] at hb
    simp only [hb, Bool.not_false, if_true]
    exact chunk_drop g c

/-! ## C75 -/

/-- Labels whose grid lies within the rank cut a list (dims or strides) into its batch, grid and cell parts; the
accessors return these parts. -/
theorem C75_labels (l : Labels) (x : List α) (h0 : 0 ≤ l.narray) (h1 : l.nb + l.narray ≤ x.length) :
    ∃ b g c, Parts l x b g c ∧ l.gpart x = .ok g ∧ l.cpart x = .ok c ∧ l.bcpart x = .ok (b ++ c) := by
  obtain ⟨b, g, c, h⟩ := Parts.make h0 h1
  exact ⟨b, g, c, h, h.gpart, h.cpart, h.bcpart⟩

example : Labels.gpart ⟨true, 2⟩ [7, 3, 4, 5] = .ok [3, 4] ∧ Labels.cpart ⟨true, 2⟩ [7, 3, 4, 5] = .ok [5] ∧
    Labels.bcpart ⟨true, 2⟩ [7, 3, 4, 5] = .ok [7, 5] ∧ Parts ⟨true, 2⟩ [7, 3, 4, 5] [7] [3, 4] [5] := by
  refine ⟨by decide, by decide, by decide, rfl, rfl, rfl⟩

/-- The batch size read through the labels: the first dim, or 0. -/
theorem C75_nbatch (l : Labels) (dims b g c : List Int) (h : Parts l dims b g c) : l.nbatch dims = .ok b.sum := by
  unfold Labels.nbatch
  by_cases hb : l.batched = true
  · obtain ⟨a, rfl⟩ := h.batched hb
    rw [if_pos hb, h.1]
    simp [Res.get]
  · have := h.unbatched hb; subst this
    rw [if_neg hb]; rfl

example : Labels.nbatch ⟨true, 1⟩ [7, 3] = .ok 7 ∧ Labels.nbatch ⟨false, 1⟩ [7, 3] = .ok 0 := by decide

theorem ofDims_eq {l : Labels} {dims b g c : List Int} (h : Parts l dims b g c) (d : Int) :
    LSpec.ofDims dims l d = .ok { adims := g, ddims := c, nbatch := b.sum, fcode := 0, dev := d } := by
  unfold LSpec.ofDims
  have h1 := C75_nbatch l dims b g c h
  have h2 := h.gpart
  have h3 := h.cpart
  unfold Labels.nbatch at h1
  unfold Labels.gpart at h2
  unfold Labels.cpart at h3
  rw [h1, h2, h3]; rfl

/-- Splitting dims by labels and joining again gives back the dims and the labels, for a positive batch and a grid within
the rank; the device is kept and the fill code is 0. -/
theorem C75_split_join (dims : List Int) (l : Labels) (d : Int) (h : LFit dims l) :
    ∃ s, LSpec.ofDims dims l d = .ok s ∧ s.getDims = dims ∧ s.getLabels = l ∧ s.dev = d ∧ s.fcode = 0 := by
  obtain ⟨h0, h1, h2⟩ := h
  obtain ⟨b, g, c, hp⟩ := Parts.make h0 h1
  refine ⟨_, ofDims_eq hp d, ?_, ?_, rfl, rfl⟩
  · rw [getDims_eq]
    by_cases hb : l.batched = true
    · obtain ⟨a, rfl⟩ := hp.batched hb
      have : 0 < a := h2 hb a (by rw [hp.1]; rfl)
      rw [hp.1]; simp [this]
    · have := hp.unbatched hb; subst this
      rw [hp.1]; simp
  · unfold LSpec.getLabels
    rw [hp.2.2]
    by_cases hb : l.batched = true
    · obtain ⟨a, rfl⟩ := hp.batched hb
      have : 0 < a := h2 hb a (by rw [hp.1]; rfl)
      cases l; simp_all
    · have := hp.unbatched hb; subst this
      cases l; simp_all

example : LFit [7, 3, 4, 5] ⟨true, 2⟩ ∧
    (LSpec.ofDims [7, 3, 4, 5] ⟨true, 2⟩ 1).bind (fun s => .ok (s.nbatch, s.adims, s.ddims, s.getDims)) =
      .ok (7, [3, 4], [5], [7, 3, 4, 5]) := by decide

/-- Joining the parts of a specification and splitting again gives back the specification (with fill code 0), when its
batch is not negative. -/
theorem C75_join_split (s : LSpec) (h : 0 ≤ s.nbatch) :
    LSpec.ofDims s.getDims s.getLabels s.dev = .ok { s with fcode := 0 } := by
  have hp : Parts s.getLabels s.getDims (if 0 < s.nbatch then [s.nbatch] else []) s.adims s.ddims := by
    refine ⟨getDims_eq s, ?_, rfl⟩
    unfold Labels.nb LSpec.getLabels
    by_cases h : 0 < s.nbatch <;> simp [h]
  rw [ofDims_eq hp]
  have : (if 0 < s.nbatch then [s.nbatch] else []).sum = s.nbatch := by
    split
    · simp
    · simp; omega
  rw [this]

example : LSpec.ofDims (((({} : LSpec).batch 3).grid [2]).matrix 4 5).getDims ⟨true, 1⟩ 0 =
    .ok (((({} : LSpec).batch 3).grid [2]).matrix 4 5) := by decide

/-- A specification put together with `batch`, `grid` and `dims` describes these parts in this order; the later builders
do not disturb the earlier ones. -/
theorem C75_builders (b : Int) (g c : List Int) (f d : Int) (hb : 0 < b) :
    ((((({} : LSpec).batch b).grid g).dims c).setFcode f |>.setDev d).getDims = b :: g ++ c ∧
    ((((({} : LSpec).batch b).grid g).dims c).setFcode f |>.setDev d).getLabels = ⟨true, g.length⟩ ∧
    ((((({} : LSpec).setDev d).setFcode f).dims c).grid g |>.batch b) =
      (((((({} : LSpec).batch b).grid g).dims c).setFcode f).setDev d) := by
  refine ⟨?_, ?_, rfl⟩
  · rw [getDims_eq]; simp [LSpec.setDev, LSpec.setFcode, LSpec.dims, LSpec.grid, LSpec.batch, hb]
  · simp [LSpec.getLabels, LSpec.setDev, LSpec.setFcode, LSpec.dims, LSpec.grid, LSpec.batch, hb]

example : (((({} : LSpec).batch 3).grid [2]).matrix 4 5).getDims = [3, 2, 4, 5] := by decide

/-- A batch of size 0 or less is dropped on joining, and so is its label. -/
theorem C75_batch_lost (b : Int) (dims : List Int) (n : Nat) (d : Int) (hb : b ≤ 0) (hn : n ≤ dims.length) :
    ∃ s, LSpec.ofDims (b :: dims) ⟨true, n⟩ d = .ok s ∧ s.getDims = dims ∧ s.getLabels = ⟨false, n⟩ := by
  have hp : Parts ⟨true, n⟩ (b :: dims) [b] (dims.take n) (dims.drop n) :=
    ⟨by simp, rfl, by simp [List.length_take]; omega⟩
  refine ⟨_, ofDims_eq hp d, ?_, ?_⟩
  · rw [getDims_eq]; simpa using hb
  · simp [LSpec.getLabels, List.length_take]; omega

example : (LSpec.ofDims [0, 3, 4] ⟨true, 1⟩ 0).bind (fun s => .ok s.getDims) = .ok [3, 4] := by decide

/-- A grid that runs past the rank is not caught: undefined behaviour. -/
theorem C75_outside (dims : List Int) (l : Labels) (d : Int) (h0 : 0 ≤ l.narray) (h1 : dims.length < l.nb + l.narray) :
    LSpec.ofDims dims l d = .ub := by
  have hb : (l.nb = 1 ∧ l.batched = true) ∨ (l.nb = 0 ∧ l.batched = false) := by
    unfold Labels.nb; cases l.batched <;> simp
  have key : gvChunk dims l.nb l.narray = .ub := by
    unfold gvChunk
    have e1 : ¬ (l.nb < 0) := by omega
    have e2 : ¬ (l.narray = -1) := by omega
    have e3 : ¬ (l.narray < 0) := by omega
    have e4 : l.nb < 0 ∨ (dims.length : Int) < l.nb + l.narray := by omega
    simp only [if_neg e1, if_neg e2, if_neg e3, if_pos e4]
  unfold LSpec.ofDims
  rw [key]
  rcases hb with ⟨-, hb⟩ | ⟨-, hb⟩
  · rw [if_pos hb]
    cases dims with
    | nil => rfl
    | cons a t => rfl
  · rw [hb]; rfl

example : LSpec.ofDims [3, 4] ⟨true, 2⟩ 0 = .ub := C75_outside _ _ _ (by decide) (by decide)

end Cnine
