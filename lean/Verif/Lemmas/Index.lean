import Verif.Model.Index
import Verif.Spec.Index
import Verif.Lemmas.Axes
import Mathlib.Data.List.Nodup
import Mathlib.Data.List.Induction

namespace Cnine

theorem foldl_mul (l : List Nat) (t : Nat) : l.foldl (fun t d => t * d) t = t * l.prod := by
  induction l generalizing t with
  | nil => simp
  | cons a l ih => simp [ih, Nat.mul_assoc]

theorem asize_eq (dims : List Nat) : asize dims = dims.prod := by
  simp [asize, foldl_mul]

theorem prod_pos_of {l : List Nat} (h : ∀ d ∈ l, 0 < d) : 0 < l.prod := by
  induction l with
  | nil => simp
  | cons a l ih =>
    rw [List.prod_cons]
    exact Nat.mul_pos (h a (by simp)) (ih fun d hd => h d (by simp [hd]))

theorem pos_of_prod_pos {l : List Nat} (h : 0 < l.prod) : ∀ d ∈ l, 0 < d := by
  induction l with
  | nil => simp
  | cons a l ih =>
    rw [List.prod_cons] at h
    have h1 := Nat.pos_of_mul_pos_left h
    have h2 := Nat.pos_of_mul_pos_right h
    intro d hd
    rcases List.mem_cons.1 hd with rfl | hd
    · exact h2
    · exact ih h1 d hd

/-! ### Specification facts -/

theorem InRange.length {ix dims : List Nat} (h : InRange ix dims) : ix.length = dims.length :=
  List.Forall₂.length_eq h

theorem mem_allIndices {ix dims : List Nat} : ix ∈ allIndices dims ↔ InRange ix dims := by
  induction dims generalizing ix with
  | nil =>
    simp only [allIndices, List.mem_singleton, InRange]
    constructor
    · rintro rfl; exact List.Forall₂.nil
    · intro h; cases h; rfl
  | cons d ds ih =>
    simp only [allIndices, List.mem_flatMap, List.mem_range, List.mem_map, InRange]
    constructor
    · rintro ⟨i, hi, is, his, rfl⟩
      exact List.Forall₂.cons hi (ih.1 his)
    · intro h
      cases h with
      | cons hi his => exact ⟨_, hi, _, ih.2 his, rfl⟩

theorem allIndices_length (dims : List Nat) : (allIndices dims).length = dims.prod := by
  induction dims with
  | nil => simp [allIndices]
  | cons d ds ih => simp [allIndices, List.length_flatMap, ih]

theorem position_lt {ix dims : List Nat} (h : InRange ix dims) : position dims ix < dims.prod := by
  induction h with
  | nil => simp [position]
  | @cons i d is ds hi _ ih =>
    simp only [position, List.prod_cons]
    calc i * ds.prod + position ds is < i * ds.prod + ds.prod := by omega
      _ = (i + 1) * ds.prod := by ring
      _ ≤ d * ds.prod := Nat.mul_le_mul_right _ hi

theorem map_position_allIndices (dims : List Nat) :
    (allIndices dims).map (position dims) = List.range dims.prod := by
  induction dims with
  | nil => simp [allIndices, position]
  | cons d ds ih =>
    simp only [allIndices, List.map_flatMap, List.map_map, List.prod_cons]
    rw [range_mul]
    refine List.flatMap_congr fun i _ => ?_
    rw [← ih, List.map_map]
    rfl

theorem allIndices_nodup (dims : List Nat) : (allIndices dims).Nodup := by
  refine List.Nodup.of_map (position dims) ?_
  rw [map_position_allIndices]
  exact List.nodup_range

theorem position_inj {ix jx dims : List Nat} (hi : InRange ix dims) (hj : InRange jx dims)
    (h : position dims ix = position dims jx) : ix = jx := by
  have hn : ((allIndices dims).map (position dims)).Nodup := by
    rw [map_position_allIndices]; exact List.nodup_range
  exact List.inj_on_of_nodup_map hn (mem_allIndices.2 hi) (mem_allIndices.2 hj) h

theorem position_append (ds is : List Nat) (d i : Nat) (h : is.length = ds.length) :
    position (ds ++ [d]) (is ++ [i]) = position ds is * d + i := by
  induction ds generalizing is with
  | nil =>
    have : is = [] := List.length_eq_zero_iff.1 (by simpa using h)
    subst this; simp [position]
  | cons e ds ih =>
    cases is with
    | nil => simp at h
    | cons j is =>
      simp only [List.cons_append, position]
      rw [ih is (by simpa using h)]
      simp [List.prod_append]
      ring

/-! ### encode / decode -/

/-- value of reversed (digit, base) pairs -/
def valRev : List (Nat × Nat) → Nat
  | [] => 0
  | (i, d) :: r => i + d * valRev r

theorem encodeLoop_eq (l : List (Nat × Nat)) (s t : Nat) : encodeLoop l s t = t + s * valRev l := by
  induction l generalizing s t with
  | nil => simp [encodeLoop, valRev]
  | cons p l ih =>
    obtain ⟨i, d⟩ := p
    simp only [encodeLoop, valRev, ih]
    ring

theorem valRev_reverse_zip (ix dims : List Nat) (h : ix.length = dims.length) :
    valRev (ix.zip dims).reverse = position dims ix := by
  induction ix using List.reverseRecOn generalizing dims with
  | nil =>
    have : dims = [] := List.length_eq_zero_iff.1 (by simpa using h.symm)
    subst this; simp [valRev, position]
  | append_singleton is i ih =>
    rcases List.eq_nil_or_concat dims with rfl | ⟨ds, d, hd⟩
    · simp at h
    · rw [List.concat_eq_append] at hd
      subst hd
      have h' : is.length = ds.length := by simpa using h
      rw [List.zip_append h', List.reverse_append, position_append _ _ _ _ h']
      simp [valRev, ih ds h']
      ring

theorem encode_eq_position (ix dims : List Nat) (h : ix.length = dims.length) :
    encode ix dims = .ok (position dims ix) := by
  simp [encode, h, encodeLoop_eq, valRev_reverse_zip ix dims h]

theorem decodeRev_ok (a : Nat) (ds : List Nat) (h : ∀ d ∈ ds, 0 < d) :
    ∃ r, decodeRev a ds = .ok r ∧ InRange r ds ∧ valRev (r.zip ds) = a % ds.prod := by
  induction ds generalizing a with
  | nil => exact ⟨[], rfl, List.Forall₂.nil, by simp [valRev, Nat.mod_one]⟩
  | cons d ds ih =>
    have hd : 0 < d := h d (by simp)
    obtain ⟨r, hr, hin, hv⟩ := ih (a / d) (fun e he => h e (by simp [he]))
    refine ⟨a % d :: r, ?_, List.Forall₂.cons (Nat.mod_lt _ hd) hin, ?_⟩
    · simp [decodeRev, Nat.pos_iff_ne_zero.1 hd, hr]
    · simp only [List.zip_cons_cons, valRev, hv, List.prod_cons]
      rw [Nat.mod_mul]

theorem InRange.reverse {ix dims : List Nat} (h : InRange ix dims) : InRange ix.reverse dims.reverse :=
  List.rel_reverse h

theorem decode_ok (a : Nat) (dims : List Nat) (h : ∀ d ∈ dims, 0 < d) :
    ∃ ix, decode a dims = .ok ix ∧ InRange ix dims ∧ position dims ix = a % dims.prod := by
  obtain ⟨r, hr, hin, hv⟩ := decodeRev_ok a dims.reverse (by simpa using h)
  have hin' : InRange r.reverse dims := by simpa using hin.reverse
  refine ⟨r.reverse, by simp [decode, hr], hin', ?_⟩
  rw [← valRev_reverse_zip _ _ hin'.length]
  have : (r.reverse.zip dims).reverse = r.zip dims.reverse := by
    have hl : r.reverse.length = dims.length := hin'.length
    rw [List.zip_eq_zipWith, List.zip_eq_zipWith, List.reverse_zipWith hl, List.reverse_reverse]
  rw [this, hv, List.prod_reverse]

/-! ### strides -/

theorem rmStridesFrom_cons (s0 d : Nat) (ds : List Nat) :
    rmStridesFrom s0 (d :: ds) = (s0 * ds.prod) :: rmStridesFrom s0 ds := by
  induction ds generalizing d with
  | nil => simp [rmStridesFrom]
  | cons e ds ih =>
    rw [rmStridesFrom, ih e]
    simp
    ring

theorem rmStrides_cons (d : Nat) (ds : List Nat) : rmStrides (d :: ds) = ds.prod :: rmStrides ds := by
  simp [rmStrides, rmStridesFrom_cons]

@[simp] theorem rmStrides_nil : rmStrides [] = [] := rfl

@[simp] theorem rmStridesFrom_length (s0 : Nat) (ds : List Nat) :
    (rmStridesFrom s0 ds).length = ds.length := by
  induction ds with
  | nil => rfl
  | cons d ds ih => simp [rmStridesFrom_cons, ih]

@[simp] theorem rmStrides_length (ds : List Nat) : (rmStrides ds).length = ds.length := by
  simp [rmStrides]

@[simp] theorem dot_nil_left (ix : List Nat) : dot [] ix = 0 := by simp [dot]
@[simp] theorem dot_nil_right (ix : List Nat) : dot ix [] = 0 := by simp [dot]
@[simp] theorem dot_cons (s i : Nat) (ss is : List Nat) : dot (s :: ss) (i :: is) = s * i + dot ss is := by
  simp [dot]

theorem dot_append (s₁ s₂ i₁ i₂ : List Nat) (h : s₁.length = i₁.length) :
    dot (s₁ ++ s₂) (i₁ ++ i₂) = dot s₁ i₁ + dot s₂ i₂ := by
  simp [dot, List.zip_append h]

theorem offsLoop_eq (ss is : List Nat) (t : Nat) : offsLoop ss is t = t + dot ss is := by
  induction ss generalizing is t with
  | nil => simp [offsLoop]
  | cons s ss ih =>
    cases is with
    | nil => simp [offsLoop]
    | cons i is => simp [offsLoop, ih]; ring

theorem offs_eq (ss is : List Nat) (h : is.length ≤ ss.length) : offs ss is = .ok (dot ss is) := by
  simp [offs, h, offsLoop_eq]

theorem dot_rmStridesFrom (s0 : Nat) (dims ix : List Nat) (h : ix.length = dims.length) :
    dot (rmStridesFrom s0 dims) ix = s0 * position dims ix := by
  induction dims generalizing ix with
  | nil => simp [rmStridesFrom, position]
  | cons d ds ih =>
    cases ix with
    | nil => simp at h
    | cons i is =>
      rw [rmStridesFrom_cons, dot_cons, ih is (by simpa using h)]
      simp [position]
      ring

theorem dot_rmStrides (dims ix : List Nat) (h : ix.length = dims.length) :
    dot (rmStrides dims) ix = position dims ix := by
  simp [rmStrides, dot_rmStridesFrom 1 dims ix h]

/-! ### for_each_index -/

theorem divideBy_position (dims ix : List Nat) (h : InRange ix dims) :
    divideBy (rmStrides dims) (position dims ix) = .ok ix := by
  induction h with
  | nil => rfl
  | @cons i d is ds hi his ih =>
    have hlt := position_lt his
    have hpos : 0 < ds.prod := by omega
    have hdiv : (i * ds.prod + position ds is) / ds.prod = i := by
      rw [Nat.mul_comm, Nat.mul_add_div hpos, Nat.div_eq_of_lt hlt, Nat.add_zero]
    rw [rmStrides_cons, position, divideBy, hdiv]
    simp only [Nat.pos_iff_ne_zero.1 hpos, if_false, Nat.add_sub_cancel_left]
    rw [ih]; rfl

theorem foldr_seq {α β} (l : List α) (f : α → Res β) (g : α → β) (h : ∀ a ∈ l, f a = .ok (g a)) :
    l.foldr (fun a acc => do let x ← f a; let r ← acc; .ok (x :: r)) (.ok []) = Res.ok (l.map g) := by
  induction l with
  | nil => rfl
  | cons a l ih =>
    rw [List.foldr_cons, ih fun b hb => h b (by simp [hb]), h a (by simp)]
    rfl

theorem foreachIndex_eq {dims : List Nat} (h : dims ≠ []) :
    foreachIndex dims = .ok (allIndices dims) := by
  cases dims with
  | nil => exact absurd rfl h
  | cons d ds =>
    simp only [foreachIndex]
    have hs := rmStrides_cons d ds
    rw [hs]
    simp only
    rw [← hs]
    have hr : List.range (ds.prod * d) = (allIndices (d :: ds)).map (position (d :: ds)) := by
      rw [map_position_allIndices, List.prod_cons, Nat.mul_comm]
    rw [hr, List.foldr_map]
    rw [foldr_seq (allIndices (d :: ds)) _ id]
    · simp
    · intro ix hix
      exact divideBy_position _ _ (mem_allIndices.1 hix)

end Cnine
