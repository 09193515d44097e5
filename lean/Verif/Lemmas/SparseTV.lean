import Verif.Model.SparseTV
import Verif.Spec.SparseTV
import Verif.Lemmas.Index
import Verif.Lemmas.BlockSparse

/-! Tensors with two sparse axes: strides and places. -/

namespace Cnine

open BlockSpec SparseSpec

namespace SparseTV

theorem indexer_ok {L : RV2} {mi : Buf Int} {l : List (Int × Int)} (h : Pairs L mi l) : indexer L mi = .ok (BSM.offsetsOf l) := by
  obtain ⟨h0, _, h2⟩ := h
  have key : ∀ n, n ≤ l.length → (loop n ((DIMap.empty, 0) : DIMap Nat × Nat) fun i s => do
      let a ← mi.read (L.cell i 0)
      let b ← mi.read (L.cell i 1)
      .ok (s.1.set a b s.2, s.2 + 1)) = Res.ok (BSM.offsetsOf (l.take n)) := by
    intro n
    induction n with
    | zero => intro _; rfl
    | succ n ih =>
      intro hn
      have ih := ih (by omega)
      simp only [loop, List.range_succ, Res.forM_append] at ih ⊢
      rw [ih, Res.ok_bind, Res.forM_cons]
      have e : l[n]? = some l[n] := List.getElem?_eq_getElem (by omega)
      obtain ⟨r1, r2⟩ := h2 n _ e
      rw [List.take_add_one, e]
      simp only [Option.toList_some]
      rw [BSM.offsetsOf_snoc]
      simp [Buf.read, r1, r2]
  unfold indexer
  rw [h0, key _ le_rfl, List.take_length]

theorem splitFrom_cons (split : Int) (n i d : Nat) : ∀ ds : List Nat, ∃ H, splitFrom split n i (d :: ds) = H :: splitFrom split n (i + 1) ds ∧
    ((split ≤ i → H = ds.prod) ∧ ((i : Int) < split → split ≤ i + ds.length → H = n * ds.prod)) := by
  intro ds
  induction ds generalizing i d with
  | nil => exact ⟨1, rfl, fun _ => rfl, fun h1 h2 => absurd h1 (by simp at h2; omega)⟩
  | cons d' ds ih =>
    obtain ⟨s, e, h1, h2⟩ := ih (i + 1) d'
    refine ⟨if (i : Int) = split - 1 then s * d' * n else s * d', ?_, ?_, ?_⟩
    · rw [splitFrom, e]
    · intro h
      rw [if_neg (by omega), h1 (by push_cast; omega), List.prod_cons, Nat.mul_comm]
    · intro h h'
      by_cases c : (i : Int) = split - 1
      · rw [if_pos c, h1 (by push_cast; omega), List.prod_cons]
        ring
      · rw [if_neg c, h2 (by push_cast; omega) (by push_cast at h' ⊢; rw [List.length_cons] at h'; push_cast at h'; omega), List.prod_cons]
        ring

theorem splitFrom_length (split : Int) (n : Nat) : ∀ (ds : List Nat) (i : Nat), (splitFrom split n i ds).length = ds.length := by
  intro ds
  induction ds with
  | nil => intro i; rfl
  | cons d ds ih =>
    intro i
    obtain ⟨H, e, _⟩ := splitFrom_cons split n i d ds
    rw [e, List.length_cons, ih, List.length_cons]

theorem prod_insertIdx (l : List Nat) (c n : Nat) (h : c ≤ l.length) : (l.insertIdx c n).prod = n * l.prod := by
  rw [(List.perm_insertIdx n l h).prod_eq, List.prod_cons]

/-- Strides of the axes behind the sparse one. -/
theorem dot_after (split : Int) (n : Nat) : ∀ (ds ix : List Nat) (i : Nat), split ≤ i → ix.length = ds.length →
    dot (splitFrom split n i ds) ix = position ds ix := by
  intro ds
  induction ds with
  | nil => intro ix i _ h; rw [List.length_eq_zero_iff.mp h]; rfl
  | cons d ds ih =>
    intro ix i hs h
    cases ix with
    | nil => cases h
    | cons a ix =>
      obtain ⟨H, e, h1, _⟩ := splitFrom_cons split n i d ds
      rw [e, dot_cons, ih ix (i + 1) (by push_cast; omega) (by simpa using h), h1 hs]
      show _ = a * ds.prod + position ds ix
      rw [Nat.mul_comm]

/-- The place of entry `ix` of block `t`. -/
theorem dot_place (n t : Nat) : ∀ (c : Nat) (ds ix : List Nat) (i : Nat), c < ds.length → ix.length = ds.length → 
    ∃ s d, (splitFrom ((i : Int) + c) n i ds)[c]? = some s ∧ ds[c]? = some d ∧
      t * (s * d) + dot (splitFrom ((i : Int) + c) n i ds) ix = place ds c n t ix := by
  intro c
  induction c with
  | zero =>
    intro ds ix i hc h
    cases ds with
    | nil => simp at hc
    | cons d ds =>
      obtain ⟨H, e, h1, _⟩ := splitFrom_cons ((i : Int) + (0 : Nat)) n i d ds
      refine ⟨H, d, by rw [e]; rfl, rfl, ?_⟩
      rw [dot_after _ _ _ _ _ (by simp) h, h1 (by simp)]
      unfold place
      rw [List.insertIdx_zero, List.insertIdx_zero]
      show _ = t * (d :: ds).prod + position (d :: ds) ix
      rw [List.prod_cons, Nat.mul_comm ds.prod]
  | succ c ih =>
    intro ds ix i hc h
    cases ds with
    | nil => simp at hc
    | cons d ds =>
      cases ix with
      | nil => cases h
      | cons a ix =>
        obtain ⟨H, e, _, h2⟩ := splitFrom_cons ((i : Int) + ((c + 1 : Nat) : Int)) n i d ds
        obtain ⟨s, d', g1, g2, g3⟩ := ih ds ix (i + 1) (by simpa using hc) (by simpa using h)
        rw [List.length_cons] at hc
        have hi : ((i : Int) + ((c + 1 : Nat) : Int)) = ((i + 1 : Nat) : Int) + (c : Int) := by push_cast; ring
        refine ⟨s, d', ?_, g2, ?_⟩
        · rw [e, hi]
          exact g1
        · rw [e, dot_cons, h2 (by push_cast; omega) (by push_cast; omega), hi]
          unfold place at g3 ⊢
          rw [List.insertIdx_succ_cons, List.insertIdx_succ_cons]
          show _ = a * (ds.insertIdx c n).prod + position (ds.insertIdx c n) (ix.insertIdx c t)
          rw [← g3, prod_insertIdx ds c n (by omega)]
          ring

theorem inRange_insert {n t : Nat} (ht : t < n) : ∀ {c : Nat} {ds ix : List Nat}, InRange ix ds → InRange (ix.insertIdx c t) (ds.insertIdx c n) ∨ ds.length < c
  | 0, ds, ix, h => Or.inl (by rw [List.insertIdx_zero, List.insertIdx_zero]; exact List.Forall₂.cons ht h)
  | c + 1, [], [], _ => Or.inr (by simp)
  | c + 1, [], _ :: _, h => by cases h
  | c + 1, _ :: _, [], h => by cases h
  | c + 1, d :: ds, a :: ix, h => by
    cases h with
    | cons h1 h2 =>
      rcases inRange_insert (c := c) ht h2 with g | g
      · left
        rw [List.insertIdx_succ_cons, List.insertIdx_succ_cons]
        exact List.Forall₂.cons h1 g
      · right
        simpa using g

theorem inRange_uninsert {n : Nat} : ∀ {c : Nat} {ds jx : List Nat}, c ≤ ds.length → InRange jx (ds.insertIdx c n) →
    ∃ t ix, t < n ∧ InRange ix ds ∧ jx = ix.insertIdx c t
  | 0, ds, jx, _, h => by
    rw [List.insertIdx_zero] at h
    cases h with
    | cons h1 h2 => exact ⟨_, _, h1, h2, by rw [List.insertIdx_zero]⟩
  | c + 1, [], jx, hc, _ => by simp at hc
  | c + 1, d :: ds, jx, hc, h => by
    rw [List.insertIdx_succ_cons] at h
    cases h with
    | cons h1 h2 =>
      obtain ⟨t, ix, g1, g2, g3⟩ := inRange_uninsert (c := c) (by simpa using hc) h2
      exact ⟨t, _ :: ix, g1, List.Forall₂.cons h1 g2, by rw [List.insertIdx_succ_cons, ← g3]⟩

theorem insert_inj {t t' : Nat} : ∀ {c : Nat} {ix jx : List Nat}, ix.length = jx.length → c ≤ ix.length →
    ix.insertIdx c t = jx.insertIdx c t' → t = t' ∧ ix = jx
  | 0, ix, jx, _, _, h => by
    rw [List.insertIdx_zero, List.insertIdx_zero] at h
    exact List.cons.inj h
  | c + 1, [], jx, _, hc, _ => by simp at hc
  | c + 1, _ :: _, [], hl, _, _ => by cases hl
  | c + 1, a :: ix, b :: jx, hl, hc, h => by
    rw [List.insertIdx_succ_cons, List.insertIdx_succ_cons] at h
    obtain ⟨h1, h2⟩ := List.cons.inj h
    obtain ⟨g1, g2⟩ := insert_inj (c := c) (by simpa using hl) (by simpa using hc) h2
    exact ⟨g1, by rw [h1, g2]⟩

theorem place_lt {ds ix : List Nat} {c n t : Nat} (hc : c ≤ ds.length) (ht : t < n) (h : InRange ix ds) : place ds c n t ix < n * ds.prod := by
  have := (inRange_insert (c := c) ht h).resolve_right (by omega)
  have := position_lt this
  rwa [prod_insertIdx _ _ _ hc] at this

theorem place_inj {ds ix jx : List Nat} {c n t t' : Nat} (hc : c ≤ ds.length) (ht : t < n) (ht' : t' < n) (h : InRange ix ds)
    (h' : InRange jx ds) (e : place ds c n t ix = place ds c n t' jx) : t = t' ∧ ix = jx := by
  have g := (inRange_insert (c := c) ht h).resolve_right (by omega)
  have g' := (inRange_insert (c := c) ht' h').resolve_right (by omega)
  exact insert_inj (by rw [h.length, h'.length]) (by rw [h.length]; exact hc) (position_inj g g' e)

theorem place_surj {ds : List Nat} {c n p : Nat} (hc : c ≤ ds.length) (hp : p < n * ds.prod) :
    ∃ t ix, t < n ∧ InRange ix ds ∧ place ds c n t ix = p := by
  rw [← prod_insertIdx ds c n hc] at hp
  have : p ∈ List.range (ds.insertIdx c n).prod := List.mem_range.mpr hp
  rw [← map_position_allIndices] at this
  obtain ⟨jx, hj, e⟩ := List.mem_map.mp this
  obtain ⟨t, ix, h1, h2, h3⟩ := inRange_uninsert hc (mem_allIndices.mp hj)
  exact ⟨t, ix, h1, h2, by unfold place; rw [← h3, e]⟩

end SparseTV

end Cnine
