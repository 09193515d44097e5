import Verif.Spec.HighViews
import Verif.Lemmas.Index
import Verif.Lemmas.View
import Verif.Lemmas.Gtensor
import Verif.Lemmas.RView3
import Verif.Lemmas.CView
import Verif.Props.RViewThree

/-!
# Lemmas about views with many axes
-/

namespace Cnine

variable {α : Type}

/-! ### Indices -/

theorem hoffs_eq : ∀ (ss ix : List Nat), hoffs ss ix = dot ss ix
  | [], ix => by simp [hoffs]
  | s :: ss, [] => by simp [hoffs]
  | s :: ss, i :: ix => by simp [hoffs, hoffs_eq ss ix]

theorem nestLoop_eq {σ : Type} : ∀ (ns : List Nat) (s : σ) (f : List Nat → σ → Res σ),
    nestLoop ns s f = Res.forM (allIndices ns) s fun s ix => f ix s
  | [], s, f => by
    show f [] s = Res.forM [[]] s _
    rw [Res.forM_cons]
    cases f [] s <;> rfl
  | n :: ns, s, f => by
    simp only [nestLoop, allIndices]
    rw [forM_flatMap]
    unfold loop
    refine forM_congr (fun i _ s => ?_) s
    show nestLoop ns s _ = _
    rw [nestLoop_eq ns, forM_map]

theorem dot_insert (i : Nat) : ∀ (k : Nat) (ss ix : List Nat), k < ss.length → ix.length + 1 = ss.length →
    dot ss (ix.insertIdx k i) = i * ss.getD k 0 + dot (ss.eraseIdx k) ix
  | 0, s :: ss, ix, _, _ => by simp [Nat.mul_comm]
  | k + 1, s :: ss, [], hk, hl => by simp at hk hl; subst hl; simp at hk
  | k + 1, s :: ss, a :: ix, hk, hl => by
    simp only [List.insertIdx_succ_cons, dot_cons, List.getD_cons_succ, List.eraseIdx_cons_succ]
    rw [dot_insert i k ss ix (by simpa using hk) (by simpa using hl)]
    omega
  | _, [], _, hk, _ => by simp at hk

theorem inRange_insert_iff (i : Nat) : ∀ (k : Nat) (ns ix : List Nat), k < ns.length → ix.length + 1 = ns.length →
    (InRange (ix.insertIdx k i) ns ↔ i < ns.getD k 0 ∧ InRange ix (ns.eraseIdx k))
  | 0, s :: ss, ix, _, _ => by simp [inRange_cons]
  | k + 1, s :: ss, [], hk, hl => by simp at hk hl; subst hl; simp at hk
  | k + 1, s :: ss, a :: ix, hk, hl => by
    simp only [List.insertIdx_succ_cons, List.getD_cons_succ, List.eraseIdx_cons_succ, inRange_cons]
    rw [inRange_insert_iff i k ss ix (by simpa using hk) (by simpa using hl)]
    tauto
  | _, [], _, hk, _ => by simp at hk

theorem dot_unfuse (n : Nat) : ∀ (k : Nat) (ss q : List Nat), k + 1 < ss.length → q.length + 1 = ss.length →
    ss.getD k 0 = n * ss.getD (k + 1) 0 → dot ss (unfuse n k q) = dot (ss.eraseIdx k) q
  | 0, s :: t :: ss, q :: l, _, _, h => by
    simp only [List.getD_cons_zero, List.getD_cons_succ] at h
    subst h
    simp only [unfuse, dot_cons, List.eraseIdx_cons_zero]
    have := Nat.div_add_mod q n
    calc n * t * (q / n) + (t * (q % n) + dot ss l) = t * (n * (q / n) + q % n) + dot ss l := by ring
      _ = _ := by rw [this]
  | k + 1, s :: ss, a :: l, hk, hl, h => by
    simp only [unfuse, dot_cons, List.eraseIdx_cons_succ]
    rw [dot_unfuse n k ss l (by simpa using hk) (by simpa using hl) (by simpa using h)]
  | _, [], _, hk, _, _ => by simp at hk
  | 0, [_], _, hk, _, _ => by simp at hk
  | 0, _ :: _ :: _, [], _, hl, _ => by simp at hl
  | k + 1, _ :: ss, [], hk, hl, _ => by simp at hk hl; subst hl; simp at hk

theorem hmerge_length : ∀ (k : Nat) (ns : List Nat), k + 1 < ns.length → (hmerge ns k).length + 1 = ns.length
  | 0, a :: b :: l, _ => by simp [hmerge]
  | k + 1, a :: l, h => by
    simp only [hmerge, List.length_cons]
    rw [hmerge_length k l (by simpa using h)]
  | _, [], h => by simp at h
  | 0, [_], h => by simp at h

theorem unfuse_range : ∀ (k : Nat) (ns q : List Nat), k + 1 < ns.length → InRange q (hmerge ns k) → InRange (unfuse (ns.getD (k + 1) 0) k q) ns
  | 0, a :: b :: l, q, _, hq => by
    obtain _ | ⟨h1, h2⟩ := hq
    rename_i i ix
    simp only [unfuse, List.getD_cons_succ, List.getD_cons_zero, inRange_cons]
    have hb : 0 < b := by rcases Nat.eq_zero_or_pos b with rfl | h; · simp at h1
                          · exact h
    exact ⟨(Nat.div_lt_iff_lt_mul hb).2 h1, Nat.mod_lt _ hb, h2⟩
  | k + 1, a :: l, q, h, hq => by
    rw [hmerge] at hq
    obtain _ | ⟨h1, h2⟩ := hq
    simp only [unfuse, List.getD_cons_succ, inRange_cons]
    exact ⟨h1, unfuse_range k l _ (by simpa using h) h2⟩
  | _, [], _, h, _ => by simp at h
  | 0, [_], _, h, _ => by simp at h

theorem unfuse_surj : ∀ (k : Nat) (ns ix : List Nat), k + 1 < ns.length → InRange ix ns →
    ∃ q, InRange q (hmerge ns k) ∧ unfuse (ns.getD (k + 1) 0) k q = ix
  | 0, a :: b :: l, ix, _, hix => by
    obtain _ | ⟨h1, h2⟩ := hix
    obtain _ | ⟨h2, h3⟩ := h2
    rename_i i j ix
    refine ⟨(i * b + j) :: ix, ?_, ?_⟩
    · simp only [hmerge, inRange_cons]
      refine ⟨?_, h3⟩
      calc i * b + j < (i + 1) * b := by rw [Nat.succ_mul]; omega
        _ ≤ a * b := Nat.mul_le_mul_right b h1
    · simp only [unfuse, List.getD_cons_succ, List.getD_cons_zero]
      rw [Nat.mul_comm, Nat.mul_add_div (by omega), Nat.div_eq_of_lt h2, Nat.mul_add_mod, Nat.mod_eq_of_lt h2, Nat.add_zero]
  | k + 1, a :: l, ix, h, hix => by
    obtain _ | ⟨h1, h2⟩ := hix
    rename_i i ix
    obtain ⟨q, g1, g2⟩ := unfuse_surj k l ix (by simpa using h) h2
    exact ⟨i :: q, by simp only [hmerge, inRange_cons]; exact ⟨h1, g1⟩, by simp only [unfuse, List.getD_cons_succ, g2]⟩
  | _, [], _, h, _ => by simp at h
  | 0, [_], _, h, _ => by simp at h

theorem unfuse_inj {n : Nat} (hn : True) : ∀ (k : Nat) (p q : List Nat), p.length = q.length → unfuse n k p = unfuse n k q → p = q
  | _, [], [], _, _ => rfl
  | 0, a :: p, b :: q, _, h => by
    simp only [unfuse, List.cons.injEq] at h
    obtain ⟨h1, h2, rfl⟩ := h
    rw [← Nat.div_add_mod a n, ← Nat.div_add_mod b n, h1, h2]
  | k + 1, a :: p, b :: q, hl, h => by
    simp only [unfuse, List.cons.injEq] at h
    rw [h.1, unfuse_inj hn k p q (by simpa using hl) h.2]

theorem unfuse_set_low (n i : Nat) : ∀ (f k : Nat) (q : List Nat), k < f → unfuse n f (q.set k i) = (unfuse n f q).set k i
  | 0, k, _, h => by omega
  | _ + 1, _, [], _ => by simp [unfuse]
  | f + 1, 0, a :: q, _ => by simp [unfuse]
  | f + 1, k + 1, a :: q, h => by simp [unfuse, unfuse_set_low n i f k q (by omega)]

theorem unfuse_set_high (n i : Nat) : ∀ (f k : Nat) (q : List Nat), f < k → unfuse n f (q.set k i) = (unfuse n f q).set (k + 1) i
  | _, 0, _, h => by omega
  | _, _ + 1, [], _ => by simp [unfuse]
  | 0, k + 1, a :: q, _ => by simp [unfuse]
  | f + 1, k + 1, a :: q, h => by simp [unfuse, unfuse_set_high n i f k q (by omega)]

theorem unfuse_erase_low (n : Nat) : ∀ (f k : Nat) (q : List Nat), k < f + 1 → k < q.length →
    (unfuse n (f + 1) q).eraseIdx k = unfuse n f (q.eraseIdx k)
  | _, _, [], _, h => by simp at h
  | f, 0, a :: q, _, _ => by simp [unfuse]
  | 0, k + 1, _, h, _ => by omega
  | f + 1, k + 1, a :: q, h, hl => by simp [unfuse, unfuse_erase_low n f k q (by omega) (by simpa using hl)]

theorem unfuse_erase_high (n : Nat) : ∀ (f k : Nat) (q : List Nat), f < k →
    (unfuse n f q).eraseIdx (k + 1) = unfuse n f (q.eraseIdx k)
  | _, 0, _, h => by omega
  | _, _ + 1, [], _ => by simp [unfuse]
  | 0, k + 1, a :: q, _ => by simp [unfuse]
  | f + 1, k + 1, a :: q, h => by simp [unfuse, unfuse_erase_high n f k q (by omega)]

theorem hmerge_getD_low : ∀ (f k : Nat) (ns : List Nat), k < f → (hmerge ns f).getD k 0 = ns.getD k 0
  | 0, _, _, h => by omega
  | f + 1, _, [], _ => by simp [hmerge]
  | f + 1, 0, a :: l, _ => by simp [hmerge]
  | f + 1, k + 1, a :: l, h => by simpa [hmerge] using hmerge_getD_low f k l (by omega)

theorem hmerge_getD_high : ∀ (f k : Nat) (ns : List Nat), f + 1 < ns.length → f < k → (hmerge ns f).getD k 0 = ns.getD (k + 1) 0
  | _, 0, _, _, h => by omega
  | _, _, [], h, _ => by simp at h
  | 0, _, [_], h, _ => by simp at h
  | 0, k + 1, a :: b :: l, _, _ => by simp [hmerge]
  | f + 1, k + 1, a :: l, hf, h => by
    simpa [hmerge] using hmerge_getD_high f k l (by simpa using hf) (by omega)

theorem hmerge_erase_low : ∀ (f k : Nat) (ns : List Nat), k < f + 1 → f + 2 < ns.length →
    (hmerge ns (f + 1)).eraseIdx k = hmerge (ns.eraseIdx k) f
  | _, _, [], _, h => by simp at h
  | f, 0, a :: l, _, _ => by simp [hmerge]
  | 0, k + 1, _, h, _ => by omega
  | f + 1, k + 1, a :: l, h, hl => by
    simp only [hmerge, List.eraseIdx_cons_succ]
    rw [hmerge_erase_low f k l (by omega) (by simp at hl; omega)]

theorem hmerge_erase_high : ∀ (k : Nat) (ns : List Nat), 1 ≤ k → k + 1 < ns.length →
    (hmerge ns 0).eraseIdx k = hmerge (ns.eraseIdx (k + 1)) 0
  | 0, _, h, _ => by omega
  | k + 1, a :: b :: l, _, _ => by simp [hmerge]
  | _ + 1, [], _, h => by simp at h
  | _ + 1, [_], _, h => by simp at h

/-! ### Compact strides -/

theorem compact_cons (a : Nat) (l : List Nat) : (a :: l).tails.tail.map List.prod = l.prod :: l.tails.tail.map List.prod := by
  cases l <;> simp [List.tails]

theorem compact_rm : ∀ l : List Nat, l.tails.tail.map List.prod = rmStrides l
  | [] => rfl
  | a :: l => by rw [compact_cons, rmStrides_cons, compact_rm l]

theorem hmerge_prod : ∀ (k : Nat) (ns : List Nat), (hmerge ns k).prod = ns.prod
  | 0, a :: b :: l => by simp [hmerge, Nat.mul_assoc]
  | 0, [] => rfl
  | 0, [_] => rfl
  | k + 1, [] => rfl
  | k + 1, a :: l => by simp [hmerge, hmerge_prod k l]

theorem rm_merge : ∀ (k : Nat) (ns : List Nat), k + 1 < ns.length → (rmStrides ns).eraseIdx k = rmStrides (hmerge ns k)
  | 0, a :: b :: l, _ => by simp [hmerge, rmStrides_cons]
  | k + 1, a :: l, h => by
    simp only [hmerge, rmStrides_cons, List.eraseIdx_cons_succ, hmerge_prod]
    rw [rm_merge k l (by simpa using h)]
  | _, [], h => by simp at h
  | 0, [_], h => by simp at h

theorem rm_linked : ∀ (k : Nat) (ns : List Nat), k + 1 < ns.length → (rmStrides ns).getD k 0 = ns.getD (k + 1) 0 * (rmStrides ns).getD (k + 1) 0
  | 0, a :: b :: l, _ => by simp [rmStrides_cons]
  | k + 1, a :: l, h => by
    simp only [rmStrides_cons, List.getD_cons_succ]
    exact rm_linked k l (by simpa using h)
  | _, [], h => by simp at h
  | 0, [_], h => by simp at h

namespace HV

theorem compact_iff {v : HV} : v.Compact ↔ v.ss = rmStrides v.ns := by rw [Compact, compact_rm]

theorem Compact.len {v : HV} (h : v.Compact) : v.ns.length = v.ss.length := by rw [compact_iff.1 h, rmStrides_length]

theorem Compact.fuse {v : HV} (h : v.Compact) {k : Nat} (hk : k + 1 < v.ns.length) : (v.fuse k).Compact := by
  rw [compact_iff] at h ⊢
  show v.ss.eraseIdx k = rmStrides (hmerge v.ns k)
  rw [h, rm_merge k _ hk]

theorem Compact.linked {v : HV} (h : v.Compact) {k : Nat} (hk : k + 1 < v.ns.length) : v.Linked k := by
  rw [compact_iff] at h
  rw [Linked, h]
  exact rm_linked k _ hk

theorem Compact.inj {v : HV} (h : v.Compact) : v.Inj := by
  intro ix hi jx hj e
  have e' := Nat.add_left_cancel e
  rw [compact_iff.1 h, dot_rmStrides _ _ hi.length, dot_rmStrides _ _ hj.length] at e'
  have h1 := GT.pick hi
  rw [e', GT.pick hj] at h1
  exact (Option.some.inj h1).symm

theorem cell_eq (v : HV) (ix : List Nat) : v.cell ix = v.at' ix := by rw [cell, at', hoffs_eq]

/-! ### Fused views -/

theorem fuse_len {v : HV} {k : Nat} (hl : v.ns.length = v.ss.length) (hk : k + 1 < v.ns.length) :
    (v.fuse k).ns.length = (v.fuse k).ss.length ∧ (v.fuse k).ns.length + 1 = v.ns.length := by
  have h1 := hmerge_length k v.ns hk
  refine ⟨?_, h1⟩
  show (hmerge v.ns k).length = (v.ss.eraseIdx k).length
  rw [List.length_eraseIdx_of_lt (by omega)]
  omega

theorem fuse_at {v : HV} {k : Nat} (hl : v.ns.length = v.ss.length) (hk : k + 1 < v.ns.length) (h : v.Linked k) {q : List Nat}
    (hq : InRange q (v.fuse k).ns) : (v.fuse k).at' q = v.at' (unfuse (v.ns.getD (k + 1) 0) k q) := by
  have := (fuse_len hl hk).2
  rw [at', at', dot_unfuse _ k v.ss q (by omega) (by rw [hq.length]; omega) h]
  rfl

theorem fuse_has {v : HV} {k : Nat} (hl : v.ns.length = v.ss.length) (hk : k + 1 < v.ns.length) (h : v.Linked k) {m : Buf α} {X : List Nat → α}
    (hX : v.Has m X) : (v.fuse k).Has m fun q => X (unfuse (v.ns.getD (k + 1) 0) k q) := by
  intro q hq
  rw [fuse_at hl hk h hq]
  exact hX _ (unfuse_range k _ _ hk hq)

theorem fuse_cov {v : HV} {k : Nat} (hl : v.ns.length = v.ss.length) (hk : k + 1 < v.ns.length) (h : v.Linked k) (c : Nat) :
    (v.fuse k).Cov c ↔ v.Cov c := by
  constructor
  · rintro ⟨q, hq, rfl⟩
    exact ⟨_, unfuse_range k _ _ hk hq, fuse_at hl hk h hq⟩
  · rintro ⟨ix, hi, rfl⟩
    obtain ⟨q, hq, rfl⟩ := unfuse_surj k _ _ hk hi
    exact ⟨q, hq, (fuse_at hl hk h hq).symm⟩

theorem fuse_inj {v : HV} {k : Nat} (hl : v.ns.length = v.ss.length) (hk : k + 1 < v.ns.length) (h : v.Linked k) (hi : v.Inj) : (v.fuse k).Inj := by
  intro p hp q hq e
  rw [fuse_at hl hk h hp, fuse_at hl hk h hq] at e
  exact unfuse_inj trivial k p q (by rw [hp.length, hq.length]) (hi _ (unfuse_range k _ _ hk hp) _ (unfuse_range k _ _ hk hq) e)

/-! ### Three axes -/

theorem three {l : List Nat} (h : l.length = 3) : l = [l.getD 0 0, l.getD 1 0, l.getD 2 0] := by
  match l, h with
  | [a, b, c], _ => rfl

theorem inRange_three {v : HV} (hn : v.ns.length = 3) {ix : List Nat} :
    InRange ix v.ns ↔ ∃ i, i < v.v3.n0 ∧ ∃ j, j < v.v3.n1 ∧ ∃ k, k < v.v3.n2 ∧ ix = [i, j, k] := by
  rw [three hn]
  constructor
  · intro h
    match ix, h.length with
    | [i, j, k], _ =>
      rw [inRange_cons, inRange_cons, inRange_cons] at h
      exact ⟨i, h.1, j, h.2.1, k, h.2.2.1, rfl⟩
  · rintro ⟨i, hi, j, hj, k, hk, rfl⟩
    rw [inRange_cons, inRange_cons, inRange_cons]
    exact ⟨hi, hj, hk, inRange_nil⟩

theorem v3_cell {v : HV} (hs : v.ss.length = 3) (i j k : Nat) : v.v3.cell i j k = v.at' [i, j, k] := by
  rw [at', three hs]
  simp only [dot_cons, dot_nil_right]
  simp only [RV3.cell, v3]
  ring

theorem v3_has {v : HV} (hn : v.ns.length = 3) (hs : v.ss.length = 3) {m : Buf α} {X : List Nat → α} (hX : v.Has m X) :
    v.v3.Has m fun i j k => X [i, j, k] := by
  intro i hi j hj k hk
  rw [v3_cell hs]
  exact hX _ ((inRange_three hn).2 ⟨i, hi, j, hj, k, hk, rfl⟩)

theorem v3_mem {v : HV} (hn : v.ns.length = 3) (hs : v.ss.length = 3) (c : Nat) : v.v3.Mem c ↔ v.Cov c := by
  constructor
  · rintro ⟨i, hi, j, hj, k, hk, rfl⟩
    exact ⟨_, (inRange_three hn).2 ⟨i, hi, j, hj, k, hk, rfl⟩, v3_cell hs i j k⟩
  · rintro ⟨ix, hi, rfl⟩
    obtain ⟨i, hi', j, hj, k, hk, rfl⟩ := (inRange_three hn).1 hi
    exact ⟨i, hi', j, hj, k, hk, (v3_cell hs i j k).symm⟩

theorem v3_inj {v : HV} (hn : v.ns.length = 3) (hs : v.ss.length = 3) (h : v.Inj) : v.v3.Inj := by
  intro i hi j hj k hk i' hi' j' hj' k' hk' e
  rw [v3_cell hs, v3_cell hs] at e
  have := h _ ((inRange_three hn).2 ⟨i, hi, j, hj, k, hk, rfl⟩) _ ((inRange_three hn).2 ⟨i', hi', j', hj', k', hk', rfl⟩) e
  simpa using this

theorem v3_regular {v : HV} (hn : v.ns.length = 3) (h : v.Compact) : v.v3.isRegular = true := by
  rw [compact_iff] at h
  obtain ⟨arr, ns, ss⟩ := v
  simp only at hn h
  subst h
  match ns, hn with
  | [a, b, c], _ => simp [v3, rmStrides_cons, RV3.isRegular]

/-! ### Reductions -/

theorem inRange_set {i : Nat} : ∀ {k : Nat} {ns ix : List Nat}, InRange ix ns → i < ns.getD k 0 → InRange (ix.set k i) ns
  | _, [], [], _, h => by simp at h
  | 0, n :: ns, a :: ix, h, hi => by
    rw [inRange_cons] at h
    simp only [List.set_cons_zero, inRange_cons]
    exact ⟨by simpa using hi, h.2⟩
  | k + 1, n :: ns, a :: ix, h, hi => by
    rw [inRange_cons] at h
    simp only [List.set_cons_succ, inRange_cons]
    exact ⟨h.1, inRange_set h.2 (by simpa using hi)⟩
  | _, [], _ :: _, h, _ => by cases h
  | _, _ :: _, [], h, _ => by cases h

theorem summed_fuse [AddCommMonoid α] {v : HV} {f k K : Nat} (hl : v.ns.length = v.ss.length) (hf : f + 1 < v.ns.length) (h : v.Linked f)
    (hk : k < f ∧ K = k ∨ f < k ∧ K = k + 1) (hn : 1 ≤ v.ns.getD K 0) {m m' : Buf α} {X : List Nat → α}
    (hS : (v.fuse f).Summed k m m' fun q => X (unfuse (v.ns.getD (f + 1) 0) f q)) : v.Summed K m m' X := by
  have hset : ∀ q i, unfuse (v.ns.getD (f + 1) 0) f (q.set k i) = (unfuse (v.ns.getD (f + 1) 0) f q).set K i := by
    intro q i
    rcases hk with ⟨h1, rfl⟩ | ⟨h1, rfl⟩
    · exact unfuse_set_low _ i f K q h1
    · exact unfuse_set_high _ i f k q h1
  have hnn : (v.fuse f).ns.getD k 0 = v.ns.getD K 0 := by
    rcases hk with ⟨h1, rfl⟩ | ⟨h1, rfl⟩
    · exact hmerge_getD_low f K _ h1
    · exact hmerge_getD_high f k _ hf h1
  refine ⟨fun ix hi => ?_, fun c hc => hS.2 c (by rwa [fuse_cov hl hf h])⟩
  obtain ⟨q, hq, rfl⟩ := unfuse_surj f _ _ hf hi
  have := hS.1 q hq
  rw [fuse_at hl hf h (inRange_set hq (by rw [hnn]; omega)), hset, hnn] at this
  rw [this]
  simp only [hset]

theorem summed_three [AddCommMonoid α] {v : HV} (hl : v.ns.length = 3) (hs : v.ss.length = 3) {m m' : Buf α} {X : List Nat → α} {k : Nat}
    (hf : ∀ c, ¬ v.v3.Mem c → m' c = m c)
    (h : k = 0 ∧ (∀ j, j < v.v3.n1 → ∀ k, k < v.v3.n2 → m' (v.v3.cell 0 j k) = some ((List.range v.v3.n0).map fun i => X [i, j, k]).sum) ∨
      k = 1 ∧ (∀ i, i < v.v3.n0 → ∀ k, k < v.v3.n2 → m' (v.v3.cell i 0 k) = some ((List.range v.v3.n1).map fun j => X [i, j, k]).sum) ∨
      k = 2 ∧ (∀ i, i < v.v3.n0 → ∀ j, j < v.v3.n1 → m' (v.v3.cell i j 0) = some ((List.range v.v3.n2).map fun k => X [i, j, k]).sum)) :
    v.Summed k m m' X := by
  refine ⟨fun ix hi => ?_, fun c hc => hf c (by rwa [v3_mem hl hs])⟩
  obtain ⟨i, hi', j, hj, l, hk, rfl⟩ := (inRange_three hl).1 hi
  rcases h with ⟨rfl, h⟩ | ⟨rfl, h⟩ | ⟨rfl, h⟩
  · have := h j hj l hk
    rw [v3_cell hs] at this
    exact this
  · have := h i hi' l hk
    rw [v3_cell hs] at this
    exact this
  · have := h i hi' j hj
    rw [v3_cell hs] at this
    exact this

theorem reduce_compact [AddCommMonoid α] : ∀ (e k : Nat) (v : HV), v.Compact → v.ns.length = 3 + e → k < 3 + e → k ≤ 3 → 2 ≤ v.ns.getD k 0 →
    ∀ (m : Buf α) (X : List Nat → α), v.Has m X → ∃ m', reduce e k v m = .ok m' ∧ v.Summed k m m' X := by
  intro e
  induction e with
  | zero =>
    intro k v hc hl hk _ hn m X hX
    have hs : v.ss.length = 3 := by rw [← hc.len]; exact hl
    have h3 := v3_has hl hs hX
    have hr := v3_regular hl hc
    match k, hk with
    | 0, _ =>
      obtain ⟨m', g1, g2, g3⟩ := C240_reduce0_partial v.v3 hr hn m _ h3
      exact ⟨m', g1, summed_three hl hs g3 (.inl ⟨rfl, g2⟩)⟩
    | 1, _ =>
      obtain ⟨m', g1, g2, g3⟩ := C240_reduce1_partial v.v3 (.inl ⟨hr, hn⟩) m _ h3
      exact ⟨m', g1, summed_three hl hs g3 (.inr (.inl ⟨rfl, g2⟩))⟩
    | 2, _ =>
      obtain ⟨m', g1, g2, g3⟩ := C240_reduce2_partial v.v3 hr (.inl hn) m _ h3
      exact ⟨m', g1, summed_three hl hs g3 (.inr (.inr ⟨rfl, g2⟩))⟩
  | succ e ih =>
    intro k v hc hl hk hk3 hn m X hX
    have key : ∀ f k', f + 1 < v.ns.length → (k' < f ∧ k = k' ∨ f < k' ∧ k = k' + 1) → k' < 3 + e → k' ≤ 3 →
        ∃ m', reduce e k' (v.fuse f) m = .ok m' ∧ v.Summed k m m' X := by
      intro f k' hf hkf hk' hk3'
      have hlen := (fuse_len hc.len hf).2
      obtain ⟨m', g1, g2⟩ := ih k' (v.fuse f) (hc.fuse hf) (by omega) hk' hk3' (by
        have : (v.fuse f).ns.getD k' 0 = v.ns.getD k 0 := by
          rcases hkf with ⟨h1, rfl⟩ | ⟨h1, rfl⟩
          · exact hmerge_getD_low f k _ h1
          · exact hmerge_getD_high f k' _ hf h1
        omega) m _ (fuse_has hc.len hf (hc.linked hf) hX)
      exact ⟨m', g1, summed_fuse hc.len hf (hc.linked hf) hkf (by omega) g2⟩
    match k, hk3 with
    | 0, _ => exact key 1 0 (by omega) (by omega) (by omega) (by omega)
    | 1, _ => exact key 2 1 (by omega) (by omega) (by omega) (by omega)
    | 2, _ => exact key 0 1 (by omega) (by omega) (by omega) (by omega)
    | 3, _ => exact key 0 2 (by omega) (by omega) (by omega) (by omega)

theorem linked_fuse {v : HV} {f j : Nat} (hl : v.ns.length = v.ss.length) (hf : f + 1 < v.ns.length) (hj : f ≤ j) (h : v.Linked (j + 1)) :
    (v.fuse f).Linked j := by
  have e : ∀ i, f ≤ i → (v.ss.eraseIdx f).getD i 0 = v.ss.getD (i + 1) 0 := by
    intro i hi
    simp only [List.getD_eq_getElem?_getD, List.getElem?_eraseIdx]
    rw [if_neg (by omega)]
  show (v.ss.eraseIdx f).getD j 0 = (hmerge v.ns f).getD (j + 1) 0 * (v.ss.eraseIdx f).getD (j + 1) 0
  rw [e j hj, e (j + 1) (by omega), hmerge_getD_high f (j + 1) _ hf (by omega)]
  exact h

theorem reduce_loose [AddCommMonoid α] : ∀ (e k : Nat) (v : HV), v.ns.length = v.ss.length → v.Inj → v.ns.length = 3 + e → 1 ≤ k → k < 2 + e → k ≤ 3 →
    2 ≤ v.ns.getD k 0 → (∀ j, j + 1 < v.ns.length → j + 1 ≠ k → j ≠ k → v.Linked j) →
    ∀ (m : Buf α) (X : List Nat → α), v.Has m X → ∃ m', reduce e k v m = .ok m' ∧ v.Summed k m m' X := by
  intro e
  induction e with
  | zero =>
    intro k v hls hi hl hk1 hk2 _ hn _ m X hX
    have hs : v.ss.length = 3 := by omega
    obtain rfl : k = 1 := by omega
    obtain ⟨m', g1, g2, g3⟩ := C240_reduce1_partial v.v3 (by
      have hn' : 2 ≤ v.v3.n1 := hn
      cases hr : v.v3.isRegular
      · exact .inr ⟨rfl, by omega, v3_inj hl hs hi⟩
      · exact .inl ⟨rfl, hn'⟩) m _ (v3_has hl hs hX)
    exact ⟨m', g1, summed_three hl hs g3 (.inr (.inl ⟨rfl, g2⟩))⟩
  | succ e ih =>
    intro k v hls hi hl hk1 hk2 hk3 hn hL m X hX
    have key : ∀ f k', f + 1 < v.ns.length → (k' < f ∧ k = k' ∨ f < k' ∧ k = k' + 1) → 1 ≤ k' → k' < 2 + e → k' ≤ 3 → v.Linked f →
        (∀ j, j + 1 < (v.fuse f).ns.length → j + 1 ≠ k' → j ≠ k' → (v.fuse f).Linked j) →
        ∃ m', reduce e k' (v.fuse f) m = .ok m' ∧ v.Summed k m m' X := by
      intro f k' hf hkf hk1' hk' hk3' hLf hL'
      have hlen := fuse_len hls hf
      obtain ⟨m', g1, g2⟩ := ih k' (v.fuse f) hlen.1 (fuse_inj hls hf hLf hi) (by omega) hk1' hk' hk3' (by
        have : (v.fuse f).ns.getD k' 0 = v.ns.getD k 0 := by
          rcases hkf with ⟨h1, rfl⟩ | ⟨h1, rfl⟩
          · exact hmerge_getD_low f k _ h1
          · exact hmerge_getD_high f k' _ hf h1
        omega) hL' m _ (fuse_has hls hf hLf hX)
      exact ⟨m', g1, summed_fuse hls hf hLf hkf (by omega) g2⟩
    match k, hk1, hk3 with
    | 1, _, _ =>
      have hf : 2 + 1 < v.ns.length := by omega
      have := (fuse_len hls hf).2
      exact key 2 1 hf (by omega) (by omega) (by omega) (by omega) (hL 2 hf (by omega) (by omega)) fun j h1 h2 h3 =>
        linked_fuse hls hf (by omega) (hL (j + 1) (by omega) (by omega) (by omega))
    | 2, _, _ =>
      have hf : 0 + 1 < v.ns.length := by omega
      have := (fuse_len hls hf).2
      exact key 0 1 hf (by omega) (by omega) (by omega) (by omega) (hL 0 hf (by omega) (by omega)) fun j h1 h2 h3 =>
        linked_fuse hls hf (by omega) (hL (j + 1) (by omega) (by omega) (by omega))
    | 3, _, _ =>
      have hf : 0 + 1 < v.ns.length := by omega
      have := (fuse_len hls hf).2
      exact key 0 2 hf (by omega) (by omega) (by omega) (by omega) (hL 0 hf (by omega) (by omega)) fun j h1 h2 h3 =>
        linked_fuse hls hf (by omega) (hL (j + 1) (by omega) (by omega) (by omega))

/-! ### Sums of views and reductions into a view -/

theorem add_ok [Add α] {r y : HV} (hn : y.ns = r.ns) (hi : r.Inj)
    (ha : ∀ ix, InRange ix r.ns → ∀ jx, InRange jx y.ns → r.at' ix = y.at' jx → ix = jx) {m : Buf α} {R Y : List Nat → α} (hR : r.Has m R) (hY : y.Has m Y) :
    ∃ m', r.add y m = .ok m' ∧ r.Has m' (fun ix => R ix + Y ix) ∧ ∀ c, ¬ r.Cov c → m' c = m c := by
  obtain ⟨m', g1, g2, g3⟩ := cells_run (allIndices r.ns) r.at' (fun ix => R ix + Y ix) (fun m ix => do
      let a ← y.get ix m
      r.inc ix a m) m (allIndices_nodup _) (fun i hi' j hj => hi i (mem_allIndices.1 hi') j (mem_allIndices.1 hj))
    (fun i hi' => by rw [hR i (mem_allIndices.1 hi')]; rfl)
    (by
      intro ix hix m1 hm1
      have hix := mem_allIndices.1 hix
      have hr : m1 (r.at' ix) = some (R ix) := by
        rw [hm1 _ fun jx hj hne e => hne (hi _ (mem_allIndices.1 hj) _ hix e.symm)]
        exact hR ix hix
      have hy : m1 (y.at' ix) = some (Y ix) := by
        rw [hm1 _ fun jx hj hne e => hne (ha _ (mem_allIndices.1 hj) _ (by rwa [hn]) e.symm)]
        exact hY ix (by rwa [hn])
      rw [get, cell_eq, read_ok hy, Res.ok_bind, inc, cell_eq, incCell_ok hr])
  refine ⟨m', ?_, fun ix hix => g2 ix (mem_allIndices.2 hix), fun c hc => g3 c fun ix hix e => hc ⟨ix, mem_allIndices.1 hix, e⟩⟩
  simp only [add, hn, decide_true, Res.assrt_true, Res.ok_bind, nestLoop_eq]
  exact g1

theorem slice_at {v : HV} (hl : v.ns.length = v.ss.length) {k : Nat} (hk : k < v.ns.length) (i : Nat) {ix : List Nat} (hi : ix.length + 1 = v.ns.length) :
    (v.slice k i).at' ix = v.at' (ix.insertIdx k i) := by
  rw [at', at', dot_insert i k v.ss ix (by omega) (by omega), ← Nat.add_assoc]
  rfl

theorem erase_len {l : List Nat} {k : Nat} (hk : k < l.length) : (l.eraseIdx k).length + 1 = l.length := by
  rw [List.length_eraseIdx_of_lt hk]; omega

theorem insert_set (i j : Nat) : ∀ (k : Nat) (ix : List Nat), k ≤ ix.length → (ix.insertIdx k i).set k j = ix.insertIdx k j
  | 0, ix, _ => by simp
  | k + 1, [], h => by simp at h
  | k + 1, a :: ix, h => by simp [insert_set i j k ix (by simpa using h)]

theorem into_ok [AddCommMonoid α] {v r : HV} (hl : v.ns.length = v.ss.length) {e k : Nat} (he : v.ns.length = 4 + e) (hk : k < v.ns.length)
    (hn : 1 ≤ v.ns.getD k 0) (hr : r.ns = v.ns.eraseIdx k) (hrl : r.ns.length = r.ss.length) (hri : r.Inj) (ha : v.Apart r) {m m1 : Buf α}
    {X R : List Nat → α} (hR : r.Has m R) (h1 : reduce (e + 1) k v m = .ok m1) (hS : v.Summed k m m1 X) :
    ∃ m', reduceInto e k v r m = .ok m' ∧
      r.Has m' (fun ix => R ix + ((List.range (v.ns.getD k 0)).map fun i => X (ix.insertIdx k i)).sum) ∧
      ∀ c, ¬ v.Cov c → ¬ r.Cov c → m' c = m c := by
  have hel := erase_len hk
  have hins : ∀ ix, InRange ix r.ns → InRange (ix.insertIdx k 0) v.ns := fun ix hix => by
    rw [hr] at hix
    exact (inRange_insert_iff 0 k v.ns ix hk (by rw [hix.length, hel])).2 ⟨by omega, hix⟩
  have hlen : ∀ ix, InRange ix r.ns → ix.length + 1 = v.ns.length := fun ix hix => by rw [hr] at hix; rw [hix.length, hel]
  have hsat : ∀ ix, InRange ix r.ns → (v.slice k 0).at' ix = v.at' (ix.insertIdx k 0) := fun ix hix => slice_at hl hk 0 (hlen ix hix)
  have hsl : (v.slice k 0).Has m1 fun ix => ((List.range (v.ns.getD k 0)).map fun i => X (ix.insertIdx k i)).sum := by
    intro ix hix
    have hix : InRange ix r.ns := by rw [hr]; exact hix
    have := hS.1 _ (hins ix hix)
    have hl' := hlen ix hix
    have hkl : k ≤ ix.length := by omega
    simp only [insert_set _ _ k ix hkl] at this
    rw [hsat ix hix, this]
  have hR1 : r.Has m1 R := by
    intro ix hix
    rw [hS.2 _ fun hc => ha _ hc ⟨ix, hix, rfl⟩]
    exact hR ix hix
  have hap : ∀ ix, InRange ix r.ns → ∀ jx, InRange jx (v.slice k 0).ns → r.at' ix = (v.slice k 0).at' jx → ix = jx := by
    intro ix hix jx hjx e
    have hjx : InRange jx r.ns := by rw [hr]; exact hjx
    rw [hsat jx hjx] at e
    exact absurd ⟨ix, hix, rfl⟩ (ha (r.at' ix) ⟨_, hins jx hjx, e⟩)
  unfold reduceInto
  rw [h1, Res.ok_bind]
  by_cases h0 : e = 0
  · rw [if_pos h0]
    have hr3 : r.ns.length = 3 := by rw [hr]; omega
    have hs3 : (v.slice k 0).ns.length = 3 := by show (v.ns.eraseIdx k).length = 3; omega
    have hs3' : (v.slice k 0).ss.length = 3 := by
      show (v.ss.eraseIdx k).length = 3
      have := erase_len (l := v.ss) (k := k) (by omega)
      omega
    have hsn : (v.slice k 0).ns = r.ns := hr.symm
    obtain ⟨m', g1, g2, g3⟩ := C234_add r.v3 (v.slice k 0).v3 (by rw [v3, v3, hsn]) (by rw [v3, v3, hsn]) (by rw [v3, v3, hsn]) (v3_inj hr3 (by omega) hri)
      (by
        intro i hi j hj l hk i' hi' j' hj' k' hk' e
        rw [v3_cell (by omega), v3_cell hs3'] at e
        simpa using hap _ ((inRange_three hr3).2 ⟨i, hi, j, hj, l, hk, rfl⟩) _ ((inRange_three hs3).2 ⟨i', hi', j', hj', k', hk', rfl⟩) e)
      m1 _ _ (v3_has hr3 (by omega) hR1) (v3_has hs3 hs3' hsl)
    refine ⟨m', g1, fun ix hix => ?_, fun c hc hc' => ?_⟩
    · obtain ⟨i, hi, j, hj, l, hk, rfl⟩ := (inRange_three hr3).1 hix
      rw [← v3_cell (by omega)]
      exact g2 i hi j hj l hk
    · rw [g3 c (by rwa [v3_mem hr3 (by omega)]), hS.2 c hc]
  · rw [if_neg h0]
    obtain ⟨m', g1, g2, g3⟩ := add_ok (r := r) (y := v.slice k 0) hr.symm hri hap hR1 hsl
    exact ⟨m', g1, g2, fun c hc hc' => by rw [g3 c hc', hS.2 c hc]⟩

/-! ### Broadcasts -/

theorem two {l : List Nat} (h : l.length = 2) : l = [l.getD 0 0, l.getD 1 0] := by
  match l, h with
  | [a, b], _ => rfl

theorem inRange_pair {v : HV} (hn : v.ns.length = 2) {ix : List Nat} :
    InRange ix v.ns ↔ ∃ i, i < v.v2.n0 ∧ ∃ j, j < v.v2.n1 ∧ ix = [i, j] := by
  rw [two hn]
  constructor
  · intro h
    match ix, h.length with
    | [i, j], _ =>
      rw [inRange_cons, inRange_cons] at h
      exact ⟨i, h.1, j, h.2.1, rfl⟩
  · rintro ⟨i, hi, j, hj, rfl⟩
    rw [inRange_cons, inRange_cons]
    exact ⟨hi, hj, inRange_nil⟩

theorem v2_cell {v : HV} (hs : v.ss.length = 2) (i j : Nat) : v.v2.cell i j = v.at' [i, j] := by
  rw [at', two hs]
  simp only [dot_cons, dot_nil_right]
  simp only [RV2.cell, v2]
  ring

theorem v2_has {v : HV} (hn : v.ns.length = 2) (hs : v.ss.length = 2) {m : Buf α} {X : List Nat → α} (hX : v.Has m X) :
    v.v2.Has m fun i j => X [i, j] := by
  intro i hi j hj
  rw [v2_cell hs]
  exact hX _ ((inRange_pair hn).2 ⟨i, hi, j, hj, rfl⟩)

theorem fuseSrc_compact {x : HV} (h : x.Compact) {k : Nat} (hk : k + 1 < x.ns.length) : x.fuseSrc k = .ok (x.fuse k) := by
  unfold fuseSrc
  split
  · next hl =>
    have hr := v3_regular hl h
    have hs : x.ss.length = 3 := by rw [← h.len]; exact hl
    obtain ⟨arr, ns, ss⟩ := x
    simp only at hl hs
    match ns, hl, ss, hs with
    | [a, b, c], _, [s, t, u], _ =>
      match k, hk with
      | 0, _ => simp only [RV3.fuse01, hr, if_pos, Res.assrt_true, Res.ok_bind]; rfl
      | 1, _ => simp only [RV3.fuse12, hr, Res.assrt_true, Res.ok_bind]; rfl
  · rfl

theorem becomes_fuse {v x : HV} {f g k K : Nat} (hl : v.ns.length = v.ss.length) (hf : f + 1 < v.ns.length) (h : v.Linked f)
    (hk : k < f ∧ K = k ∧ f = g + 1 ∨ f = 0 ∧ g = 0 ∧ 1 ≤ k ∧ K = k + 1) (hkl : k < (v.fuse f).ns.length) {m' : Buf α} {X : List Nat → α}
    (hn : x.ns.getD (g + 1) 0 = v.ns.getD (f + 1) 0)
    (hB : (v.fuse f).Has m' fun q => X (unfuse (x.ns.getD (g + 1) 0) g (q.eraseIdx k))) : v.Has m' fun ix => X (ix.eraseIdx K) := by
  intro ix hi
  obtain ⟨q, hq, rfl⟩ := unfuse_surj f _ _ hf hi
  have := hB q hq
  rw [fuse_at hl hf h hq] at this
  rw [this, hn]
  dsimp only
  congr 2
  rcases hk with ⟨h1, rfl, rfl⟩ | ⟨rfl, rfl, h1, rfl⟩
  · exact (unfuse_erase_low _ g K q h1 (by rw [hq.length]; exact hkl)).symm
  · exact (unfuse_erase_high _ 0 k q (by omega)).symm

theorem broadcast_compact : ∀ (e k : Nat) (v x : HV), v.Compact → x.Compact → v.ns.length = 3 + e → k < 3 + e → x.ns = v.ns.eraseIdx k →
    (1 ≤ v.ns.getD k 0 ∨ k = 2 + e) → v.Apart x → ∀ (m : Buf α) (R X : List Nat → α), v.Has m R → x.Has m X →
    ∃ m', broadcast e k v x m = .ok m' ∧ v.Has m' (fun ix => X (ix.eraseIdx k)) ∧ ∀ c, ¬ v.Cov c → m' c = m c := by
  intro e
  induction e with
  | zero =>
    intro k v x hc hx hl hk hxn hn ha m R X hR hX
    have hs : v.ss.length = 3 := by rw [← hc.len]; exact hl
    have hxl : x.ns.length = 2 := by rw [hxn]; have := erase_len (l := v.ns) (k := k) (by omega); omega
    have hxs : x.ss.length = 2 := by rw [← hx.len]; exact hxl
    have h3 := v3_has hl hs hR
    have h2 := v2_has hxl hxs hX
    have hr := v3_regular hl hc
    have hreg : x.v2.s0 = x.v2.n1 * x.v2.s1 := by
      have := hx.linked (k := 0) (by omega)
      exact this
    have hap : v.v3.Apart2 x.v2 := by
      intro i hi j hj l hk' i' hi' j' hj' e
      rw [v3_cell hs, v2_cell hxs] at e
      exact ha _ ⟨_, (inRange_three hl).2 ⟨i, hi, j, hj, l, hk', rfl⟩, rfl⟩ ⟨_, (inRange_pair hxl).2 ⟨i', hi', j', hj', rfl⟩, e⟩
    have fin : ∀ (m' : Buf α) (f : Nat → Nat → Nat → α), v.v3.Becomes m m' f →
        (∀ i j l, f i j l = X (([i, j, l] : List Nat).eraseIdx k)) → v.Has m' (fun ix => X (ix.eraseIdx k)) ∧ ∀ c, ¬ v.Cov c → m' c = m c := by
      intro m' f hb hf
      refine ⟨fun ix hi => ?_, fun c hc => hb.2 c (by rwa [v3_mem hl hs])⟩
      obtain ⟨i, hi', j, hj, l, hk', rfl⟩ := (inRange_three hl).1 hi
      rw [← v3_cell hs, hb.1 i hi' j hj l hk', hf]
    have hsz : ∀ a b, (v.ns.eraseIdx k) = [a, b] → x.v2.n0 = a ∧ x.v2.n1 = b := by
      intro a b h
      rw [v2, hxn, h]
      exact ⟨rfl, rfl⟩
    have hv3 := three hl
    match k, hk with
    | 0, _ =>
      obtain ⟨e1, e2⟩ := hsz (v.ns.getD 1 0) (v.ns.getD 2 0) (by rw [hv3]; rfl)
      obtain ⟨m', g1, g2⟩ := C241_broadcast0_partial v.v3 x.v2 e1 e2 hr hreg (by
        rcases hn with h | h
        · exact h
        · omega) hap m _ _ h3 h2
      exact ⟨m', g1, fin m' _ g2 fun _ _ _ => rfl⟩
    | 1, _ =>
      obtain ⟨e1, e2⟩ := hsz (v.ns.getD 0 0) (v.ns.getD 2 0) (by rw [hv3]; rfl)
      obtain ⟨m', g1, g2⟩ := C241_broadcast1_partial v.v3 x.v2 e1 e2 (v3_inj hl hs hc.inj) (by
        rcases hn with h | h
        · exact h
        · omega) hap m _ _ h3 h2
      exact ⟨m', g1, fin m' _ g2 fun _ _ _ => rfl⟩
    | 2, _ =>
      obtain ⟨e1, e2⟩ := hsz (v.ns.getD 0 0) (v.ns.getD 1 0) (by rw [hv3]; rfl)
      obtain ⟨m', g1, g2⟩ := C241_broadcast2_partial v.v3 x.v2 e1 e2 hr hreg hap m _ _ h3 h2
      exact ⟨m', g1, fin m' _ g2 fun _ _ _ => rfl⟩
  | succ e ih =>
    intro k v x hc hx hl hk hxn hn ha m R X hR hX
    have hel := erase_len (l := v.ns) (k := k) (by omega)
    have hxl : x.ns.length = 3 + e := by rw [hxn]; omega
    have key : ∀ f g k', f + 1 < v.ns.length → g + 1 < x.ns.length → (k' < f ∧ k = k' ∧ f = g + 1 ∨ f = 0 ∧ g = 0 ∧ 1 ≤ k' ∧ k = k' + 1) → k' < 3 + e →
        ∃ m', (x.fuseSrc g >>= fun y => broadcast e k' (v.fuse f) y m) = .ok m' ∧ v.Has m' (fun ix => X (ix.eraseIdx k)) ∧
          ∀ c, ¬ v.Cov c → m' c = m c := by
      intro f g k' hf hg hkf hk'
      have hlen := (fuse_len hc.len hf).2
      have hgg : x.ns.getD (g + 1) 0 = v.ns.getD (f + 1) 0 := by
        rw [hxn]
        simp only [List.getD_eq_getElem?_getD, List.getElem?_eraseIdx]
        rcases hkf with ⟨h1, rfl, rfl⟩ | ⟨rfl, rfl, h1, rfl⟩
        · rw [if_neg (by omega)]
        · rw [if_pos (by omega)]
      have hns : (x.fuse g).ns = (v.fuse f).ns.eraseIdx k' := by
        show hmerge x.ns g = (hmerge v.ns f).eraseIdx k'
        rw [hxn]
        rcases hkf with ⟨h1, rfl, rfl⟩ | ⟨rfl, rfl, h1, rfl⟩
        · exact (hmerge_erase_low g k _ h1 (by omega)).symm
        · exact (hmerge_erase_high k' _ h1 (by omega)).symm
      have hgd : (v.fuse f).ns.getD k' 0 = v.ns.getD k 0 := by
        rcases hkf with ⟨h1, rfl, rfl⟩ | ⟨rfl, rfl, h1, rfl⟩
        · exact hmerge_getD_low _ k _ h1
        · exact hmerge_getD_high 0 k' _ hf (by omega)
      obtain ⟨m', g1, g2, g3⟩ := ih k' (v.fuse f) (x.fuse g) (hc.fuse hf) (hx.fuse hg) (by omega) hk' hns (by
          rw [hgd]
          rcases hn with h | h
          · exact .inl h
          · right; omega)
        (fun c h1 h2 => ha c ((fuse_cov hc.len hf (hc.linked hf) c).1 h1) ((fuse_cov hx.len hg (hx.linked hg) c).1 h2))
        m _ _ (fuse_has hc.len hf (hc.linked hf) hR) (fuse_has hx.len hg (hx.linked hg) hX)
      refine ⟨m', by rw [fuseSrc_compact hx hg, Res.ok_bind, g1], ?_, fun c hc' => g3 c (by rwa [fuse_cov hc.len hf (hc.linked hf)])⟩
      exact becomes_fuse hc.len hf (hc.linked hf) hkf (by omega) hgg g2
    match k, hk with
    | 0, _ =>
      simp only [broadcast, hxn, decide_true, Res.assrt_true, Res.ok_bind]
      exact key (e + 2) (e + 1) 0 (by omega) (by omega) (by omega) (by omega)
    | 1, _ =>
      simp only [broadcast, hxn, decide_true, Res.assrt_true, Res.ok_bind]
      exact key (e + 2) (e + 1) 1 (by omega) (by omega) (by omega) (by omega)
    | k + 2, _ =>
      simp only [broadcast, hxn, decide_true, Res.assrt_true, Res.ok_bind]
      exact key 0 0 (k + 1) (by omega) (by omega) (by omega) (by omega)

end HV

end Cnine
