import Verif.Props.CtensorArrayB

/-!
# C613, C614: broadcasting and adding along one axis of an array of complex tensors of backend B
-/

namespace Cnine

variable {α : Type}

namespace CBA

open CB (mk0 noalloc_ok)

variable {X : CBA} {A C : List Nat} {F : List Nat → List Nat → Cx α} {m : Buf α}

/-- A loop over the tensors of an array, each step changing one of them. -/
theorem each (h : X.Is A C F m) (new : Nat → (List Nat → Cx α) → List Nat → Cx α) (body : Nat → Buf α → Res (Buf α))
    (hb : ∀ ia, InRange ia A → ∀ m' F', X.Is A C F' m' → (∀ c, ¬ X.T.Owns c → m' c = m c) →
      ∃ m'', body (position A ia) m' = .ok m'' ∧ X.Becomes A C (fun ja => if ja = ia then new (position A ia) (F' ia) else F' ja) m' m'') :
    ∃ m', loop A.prod m body = .ok m' ∧ X.Becomes A C (fun ja => new (position A ja) (F ja)) m m' := by
  have run : ∀ n, n ≤ A.prod → ∃ m', loop n m body = .ok m' ∧ X.Becomes A C (fun ja => if position A ja < n then new (position A ja) (F ja) else F ja) m m' := by
    intro n
    induction n with
    | zero => exact fun _ => ⟨m, rfl, h.of_parts fun ia hi => h.partIs hi, fun _ _ => rfl⟩
    | succ n ih =>
      intro hn
      obtain ⟨m1, h1, h2, h3⟩ := ih (by omega)
      obtain ⟨ia, hi, hp⟩ := GT.surj (dims := A) (i := n) (by omega)
      obtain ⟨m2, g1, g2⟩ := hb ia hi m1 _ h2 h3
      rw [hp] at g1
      refine ⟨m2, by rw [RA.loop_snoc, h1, Res.ok_bind]; exact g1, h.of_parts fun ja hj => ?_, fun c hc => (g2.2 c hc).trans (h3 c hc)⟩
      have := g2.1.partIs hj
      by_cases e : ja = ia
      · subst e
        rw [if_pos rfl, if_neg (by omega)] at this
        rw [if_pos (by omega)]
        exact this
      · have hne : position A ja ≠ n := fun k => e (position_inj hj hi (k.trans hp.symm))
        rw [if_neg e] at this
        by_cases hlt : position A ja < n
        · rw [if_pos hlt] at this
          rw [if_pos (by omega)]
          exact this
        · rw [if_neg hlt] at this
          rw [if_neg (by omega)]
          exact this
  obtain ⟨m', h1, h2, h3⟩ := run A.prod le_rfl
  refine ⟨m', h1, h.of_parts fun ia hi => ?_, h3⟩
  have := h2.partIs hi
  rw [if_pos (position_lt hi)] at this
  exact this

/-- The same array with the axes grouped in another way. -/
def regroup (X : CBA) (B E : List Nat) : CBA := ⟨mk0 X.T.arr (B ++ E) true, B.length⟩

theorem Is.regroup (h : X.Is A C F m) {B E : List Nat} (hE : E ≠ []) (he : B.prod * E.prod = A.prod * C.prod) :
    ∃ G : List Nat → List Nat → Cx α, (X.regroup B E).Is B E G m ∧
      ∀ ia ic ib ie, InRange ia A → InRange ic C → InRange ib B → InRange ie E → position A ia * C.prod + position C ic = position B ib * E.prod + position E ie → G ib ie = F ia ic := by
  obtain ⟨T, G, h1, h2, _, _, h5⟩ := CB.C590_shape_partial h.tensor (E := B ++ E) (by simp [hE]) (by rw [List.prod_append, List.prod_append, he])
  have h1 : CB.noalloc X.T.arr (B ++ E) true = .ok T := h1
  rw [noalloc_ok (by simp [hE]), Res.ok.injEq] at h1
  subst h1
  refine ⟨_, is_of hE h2, fun ia ic ib ie ha hc hb hi e => ?_⟩
  have := h5 _ _ (GT.inRange_app ha hc) (GT.inRange_app hb hi) (by rw [GT.position_app ha.length, GT.position_app hb.length, e])
  rw [List.take_left' ha.length, List.drop_left' ha.length] at this
  exact this

/-- Back to the old grouping. -/
theorem Is.ungroup {m' : Buf α} (h : X.Is A C F m) {B E : List Nat} (he : B.prod * E.prod = A.prod * C.prod) {G : List Nat → List Nat → Cx α} (hY : (X.regroup B E).Becomes B E G m m')
    {F' : List Nat → List Nat → Cx α} (hg : ∀ ia ic ib ie, InRange ia A → InRange ic C → InRange ib B → InRange ie E →
      position A ia * C.prod + position C ic = position B ib * E.prod + position E ie → G ib ie = F' ia ic) : X.Becomes A C F' m m' := by
  refine ⟨⟨h.ne, h.tensor.mk' fun ix hi => ?_, h.ak⟩, fun c hc => hY.2 c fun k => hc ?_⟩
  · obtain ⟨h1, h2⟩ := GT.inRange_split hi
    have hp : position (A ++ C) ix = position A (ix.take A.length) * C.prod + position C (ix.drop A.length) := by
      rw [← GT.position_app h1.length, List.take_append_drop]
    have hlt := position_lt hi
    obtain ⟨jx, hj, e⟩ := GT.surj (dims := B ++ E) (i := position (A ++ C) ix) (by rw [List.prod_append, he, ← List.prod_append]; exact hlt)
    obtain ⟨k1, k2⟩ := GT.inRange_split hj
    have hq : position (B ++ E) jx = position B (jx.take B.length) * E.prod + position E (jx.drop B.length) := by
      rw [← GT.position_app k1.length, List.take_append_drop]
    have := hY.1.tensor.has jx hj
    rw [e, hg _ _ _ _ h1 h2 k1 k2 (by rw [← hp, ← hq, e])] at this
    exact this
  · obtain ⟨k1, k2⟩ := k
    have k2 : c < X.T.arr + 2 * (B ++ E).prod := k2
    refine ⟨k1, ?_⟩
    rw [h.tensor.asize, List.prod_append, ← he, ← List.prod_append]
    exact k2

theorem guards {n : Nat} {c : Nat → Prop} [DecidablePred c] {f : Nat → Unit → Res Unit} (hf : ∀ i, i < n → f i () = Res.assrt (decide (c i))) :
    loop n () f = if ∀ i, i < n → c i then .ok () else .throw := by
  induction n with
  | zero => rw [if_pos fun i hi => absurd hi (by omega)]; rfl
  | succ n ih =>
    rw [RA.loop_snoc, ih fun i hi => hf i (by omega)]
    by_cases h : ∀ i, i < n → c i
    · rw [if_pos h, Res.ok_bind, hf n (by omega)]
      by_cases hn : c n
      · rw [decide_eq_true hn, if_pos fun i hi => by
          rcases Nat.lt_succ_iff_lt_or_eq.1 hi with k | rfl
          · exact h i k
          · exact hn]
        rfl
      · rw [decide_eq_false hn, if_neg fun k => hn (k n (by omega))]; rfl
    · rw [if_neg h, if_neg fun k => h fun i hi => k i (by omega)]; rfl

/-! ### C613: broadcasting along an axis -/

/-- The sizes match exactly when leaving out axis `ix` gives the sizes of the other array. -/
theorem sizesMatch_eq (A B : List Nat) {ix : Nat} (hi : ix < A.length) (hl : B.length + 1 = A.length) :
    sizesMatch A B ix = if B = A.eraseIdx ix then .ok () else .throw := by
  have e1 := guards (n := ix) (c := fun i => A.getD i 0 = B.getD i 0) (f := fun i _ => do
    let a ← Res.get A i
    let b ← Res.get B i
    Res.assrt (a = b)) fun i h => by
      have h1 : A[i]? = some (A.getD i 0) := by rw [List.getD_eq_getElem?_getD, List.getElem?_eq_getElem (show i < A.length by omega)]; rfl
      have h2 : B[i]? = some (B.getD i 0) := by rw [List.getD_eq_getElem?_getD, List.getElem?_eq_getElem (show i < B.length by omega)]; rfl
      simp only [Res.get, h1, h2]; rfl
  have e2 := guards (n := A.length - (ix + 1)) (c := fun k => A.getD (ix + 1 + k) 0 = B.getD (ix + k) 0) (f := fun k _ => do
    let a ← Res.get A (ix + 1 + k)
    let b ← Res.get B (ix + k)
    Res.assrt (a = b)) fun i h => by
      have h1 : A[ix + 1 + i]? = some (A.getD (ix + 1 + i) 0) := by rw [List.getD_eq_getElem?_getD, List.getElem?_eq_getElem (show ix + 1 + i < A.length by omega)]; rfl
      have h2 : B[ix + i]? = some (B.getD (ix + i) 0) := by rw [List.getD_eq_getElem?_getD, List.getElem?_eq_getElem (show ix + i < B.length by omega)]; rfl
      simp only [Res.get, h1, h2]; rfl
  have key : B = A.eraseIdx ix ↔ (∀ i, i < ix → A.getD i 0 = B.getD i 0) ∧ ∀ k, k < A.length - (ix + 1) → A.getD (ix + 1 + k) 0 = B.getD (ix + k) 0 := by
    constructor
    · intro e
      constructor
      · intro i h
        rw [e, List.getD_eq_getElem?_getD, List.getD_eq_getElem?_getD, List.getElem?_eraseIdx, if_pos h]
      · intro k h
        rw [e, List.getD_eq_getElem?_getD, List.getD_eq_getElem?_getD, List.getElem?_eraseIdx, if_neg (by omega), show ix + k + 1 = ix + 1 + k by omega]
    · rintro ⟨h1, h2⟩
      refine List.ext_getElem? fun i => ?_
      rw [List.getElem?_eraseIdx]
      by_cases hb : i < B.length
      · have hB : B[i]? = some (B.getD i 0) := by rw [List.getD_eq_getElem?_getD, List.getElem?_eq_getElem hb]; rfl
        split
        · next h =>
          rw [hB, ← h1 i h, List.getD_eq_getElem?_getD, List.getElem?_eq_getElem (show i < A.length by omega)]; rfl
        · next h =>
          have := h2 (i - ix) (by omega)
          rw [show ix + (i - ix) = i by omega, show ix + 1 + (i - ix) = i + 1 by omega] at this
          rw [hB, ← this, List.getD_eq_getElem?_getD, List.getElem?_eq_getElem (show i + 1 < A.length by omega)]; rfl
      · rw [List.getElem?_eq_none (by omega), if_neg (by omega), List.getElem?_eq_none (by omega)]
  unfold sizesMatch
  rw [e1]
  by_cases h1 : ∀ i, i < ix → A.getD i 0 = B.getD i 0
  · rw [if_pos h1, Res.ok_bind, e2]
    by_cases h2 : ∀ k, k < A.length - (ix + 1) → A.getD (ix + 1 + k) 0 = B.getD (ix + k) 0
    · rw [if_pos h2, if_pos (key.2 ⟨h1, h2⟩)]
    · rw [if_neg h2, if_neg fun k => h2 (key.1 k).2]
  · rw [if_neg h1, if_neg fun k => h1 (key.1 k).1]; rfl

theorem Is.stride_at (h : X.Is A C F m) {k : Nat} (hk : k < A.length) : Res.get X.T.strides k = .ok (2 * ((A.drop (k + 1)).prod * C.prod)) := by
  rw [h.tensor.strides', GT.strides_from, Res.get, List.getElem?_map, GT.strides_get (by rw [List.length_append]; omega)]
  show Res.ok (2 * ((A ++ C).drop (k + 1)).prod) = _
  rw [List.drop_append_of_le_length (by omega), List.prod_append]

/-- An index, in the grouping of the loops. -/
theorem split_index {P S : List Nat} {n a : Nat} {ia ic ie : List Nat} (ha : InRange ia (P ++ n :: S)) (hc : InRange ic C) (hp : a < P.prod) (he : InRange ie (n :: (S ++ C)))
    (e : position (P ++ n :: S) ia * C.prod + position C ic = a * (n :: (S ++ C)).prod + position (n :: (S ++ C)) ie) :
    ∃ ip i is, ia = ip ++ i :: is ∧ InRange ip P ∧ i < n ∧ InRange is S ∧ position P ip = a ∧ ie = i :: (is ++ ic) := by
  obtain ⟨h1, h2⟩ := GT.inRange_split ha
  obtain ⟨ip, hip⟩ : ∃ ip, ip = ia.take P.length := ⟨_, rfl⟩
  obtain ⟨it, hit⟩ : ∃ it, it = ia.drop P.length := ⟨_, rfl⟩
  rw [← hip] at h1
  rw [← hit] at h2
  have hia : ia = ip ++ it := by rw [hip, hit, List.take_append_drop]
  cases h2 with
  | @cons i _ is _ hi hs =>
    have hs : InRange is S := hs
    refine ⟨ip, i, is, hia, h1, hi, hs, ?_⟩
    have k1 : InRange (position P ip :: i :: (is ++ ic)) (P.prod :: n :: (S ++ C)) := .cons (position_lt h1) (.cons hi (GT.inRange_app hs hc))
    have k2 : InRange (a :: ie) (P.prod :: n :: (S ++ C)) := .cons hp he
    have := position_inj k1 k2 (by
      rw [hia, GT.position_app h1.length] at e
      simp only [position, GT.position_app hs.length, List.prod_cons, List.prod_append] at e ⊢
      rw [← e]
      ring)
    injection this with r1 r2
    exact ⟨r1, r2.symm⟩

/-- The loops of the function, whatever the axis. -/
theorem broadcast_core {P S : List Nat} {n : Nat} {x : CBA} {G : List Nat → List Nat → Cx α} (h : X.Is (P ++ n :: S) C F m) (hx : x.Is (P ++ S) C G m) (ha : X.T.Apart x.T) :
    ∃ m', loop P.prod m (fun a m => loop n m fun i m => stdCopy m (x.T.arr + a * (2 * (S ++ C).prod)) (2 * (S ++ C).prod)
        (X.T.arr + a * (2 * (n * (S ++ C).prod)) + i * (2 * (S ++ C).prod))) = .ok m' ∧ X.Becomes (P ++ n :: S) C (fun ja => G (ja.eraseIdx P.length)) m m' := by
  have hE : S ++ C ≠ [] := by simp [h.ne]
  have eX : [P.prod].prod * (n :: (S ++ C)).prod = (P ++ n :: S).prod * C.prod := by simp only [List.prod_cons, List.prod_nil, List.prod_append]; ring
  have ex : [P.prod].prod * (S ++ C).prod = (P ++ S).prod * C.prod := by simp only [List.prod_cons, List.prod_nil, List.prod_append]; ring
  obtain ⟨FY, hY, _⟩ := h.regroup (B := [P.prod]) (E := n :: (S ++ C)) (by simp) eX
  obtain ⟨Gx, hx', hG⟩ := hx.regroup (B := [P.prod]) (E := S ++ C) hE ex
  have hown : ∀ c, (X.regroup [P.prod] (n :: (S ++ C))).T.Owns c → X.T.Owns c := by
    rintro c ⟨k1, k2⟩
    refine ⟨k1, ?_⟩
    have k2 : c < X.T.arr + 2 * ([P.prod] ++ n :: (S ++ C)).prod := k2
    rw [List.prod_append, eX, ← List.prod_append] at k2
    rw [h.tensor.asize]; exact k2
  have hownx : ∀ c, (x.regroup [P.prod] (S ++ C)).T.Owns c → x.T.Owns c := by
    rintro c ⟨k1, k2⟩
    refine ⟨k1, ?_⟩
    have k2 : c < x.T.arr + 2 * ([P.prod] ++ (S ++ C)).prod := k2
    rw [List.prod_append, ex, ← List.prod_append] at k2
    rw [hx.tensor.asize]; exact k2
  obtain ⟨m', h1, h2⟩ := each hY (fun a _ ic => Gx [a] (ic.drop 1)) (fun a m => loop n m fun i m => stdCopy m (x.T.arr + a * (2 * (S ++ C).prod)) (2 * (S ++ C).prod)
      (X.T.arr + a * (2 * (n * (S ++ C).prod)) + i * (2 * (S ++ C).prod))) (by
    intro ia hi m1 F1 hF1 hout
    have hp : position [P.prod] ia < P.prod := by have := position_lt hi; simpa using this
    have hia : ia = [position [P.prod] ia] := by
      cases hi with
      | cons a b => cases b; simp [position]
    have hpx : InRange [position [P.prod] ia] [P.prod] := .cons hp .nil
    have hxe : position [P.prod] [position [P.prod] ia] = position [P.prod] ia := by rw [← hia]
    obtain ⟨a, hadef⟩ : ∃ a, a = position [P.prod] ia := ⟨_, rfl⟩
    rw [← hadef] at hp hia hpx hxe ⊢
    have hcell := hF1.partIs hi
    rw [← hadef] at hcell
    have hZ : (⟨(X.regroup [P.prod] (n :: (S ++ C))).part (n :: (S ++ C)) a, 1⟩ : CBA).Is [n] (S ++ C) (fun ib ic => F1 ia (ib ++ ic)) m1 := is_of (A := [n]) hE hcell
    have hx1 : (x.regroup [P.prod] (S ++ C)).Is [P.prod] (S ++ C) Gx m1 := ⟨hE, hx'.tensor.keep fun c hc => hout c fun k => ha c (hown c k) (hownx c hc), hx'.ak⟩
    obtain ⟨m2, g1, g2⟩ := each hZ (fun _ _ => Gx [a]) (fun i m => stdCopy m (x.T.arr + a * (2 * (S ++ C).prod)) (2 * (S ++ C).prod)
      (X.T.arr + a * (2 * (n * (S ++ C).prod)) + i * (2 * (S ++ C).prod))) (by
      intro ib hib m3 F3 hF3 hout3
      have hx3 : (x.regroup [P.prod] (S ++ C)).Is [P.prod] (S ++ C) Gx m3 := ⟨hE, hx1.tensor.keep fun c hc => hout3 c fun k =>
        ha c (hown c (hF1.part_owns (by simpa using hp) k)) (hownx c hc), hx1.ak⟩
      have hsrc := hx3.partIs hpx
      rw [hxe] at hsrc
      obtain ⟨m4, f1, f2⟩ := CB.C592_set_partial (hF3.partIs hib) hsrc fun c hc k =>
        ha c (hown c (hF1.part_owns (by simpa using hp) (hF3.part_owns (position_lt hib) hc))) (hownx c (hx3.part_owns (by simpa using hp) k))
      refine ⟨m4, ?_, hF3.one hib f2⟩
      rw [CB.setT] at f1
      rw [← f1]
      show stdCopy m3 _ _ _ = stdCopy m3 (x.T.arr + 2 * (a * (S ++ C).prod)) (2 * (S ++ C).prod) (X.T.arr + 2 * (a * (n :: (S ++ C)).prod) + 2 * (position [n] ib * (S ++ C).prod))
      rw [List.prod_cons]
      congr 1 <;> ring)
    refine ⟨m2, by rw [← g1]; simp, ?_⟩
    have hb : ((X.regroup [P.prod] (n :: (S ++ C))).part (n :: (S ++ C)) (position [P.prod] ia)).Becomes (n :: (S ++ C)) (fun ic => Gx [a] (ic.drop 1)) m1 m2 := by
      rw [← hadef]
      exact ⟨g2.1.tensor, g2.2⟩
    exact hF1.one hi hb)
  refine ⟨m', by rw [← h1]; simp, h.ungroup eX h2 fun ia ic ib ie h3 h4 h5 h6 e => ?_⟩
  have hp : position [P.prod] ib < P.prod := by have := position_lt h5; simpa using this
  obtain ⟨ip, i, is, rfl, k1, k2, k3, k4, rfl⟩ := split_index h3 h4 hp h6 e
  have hE' : (ip ++ i :: is).eraseIdx P.length = ip ++ is := by
    rw [← k1.length, List.eraseIdx_append_of_length_le (le_refl _)]; simp
  show Gx [position [P.prod] ib] (is ++ ic) = G ((ip ++ i :: is).eraseIdx P.length) ic
  rw [hE']
  refine hG _ _ _ _ (GT.inRange_app k1 k3) h4 (.cons hp .nil) (GT.inRange_app k3 h4) ?_
  rw [GT.position_app k1.length, GT.position_app k3.length, k4]
  simp only [position, List.prod_nil, List.prod_append]
  ring

theorem C613_broadcast_partial {P S : List Nat} {n : Nat} {x : CBA} {G : List Nat → List Nat → Cx α} (h : X.Is (P ++ n :: S) C F m) (hx : x.Is (P ++ S) C G m) (ha : X.T.Apart x.T)
    (hne : P = [] ∨ n * (S ++ C).prod ≠ 0) : ∃ m', X.broadcastAlong P.length x m = .ok m' ∧ X.Becomes (P ++ n :: S) C (fun ja => G (ja.eraseIdx P.length)) m m' := by
  obtain ⟨m', h1, h2⟩ := broadcast_core h hx ha
  refine ⟨m', ?_, h2⟩
  have hk : x.ak + 1 = X.ak := by rw [h.ak, hx.ak]; simp; omega
  have hs : sizesMatch (P ++ n :: S) (P ++ S) P.length = .ok () := by
    rw [sizesMatch_eq _ _ (by simp) (by simp; omega), if_pos]
    rw [List.eraseIdx_append_of_length_le (le_refl _)]; simp
  have hn : Res.get (P ++ n :: S) P.length = .ok n := by simp [Res.get]
  rw [broadcastAlong, decide_eq_true hk, Res.assrt_true, Res.ok_bind, h.adims, hx.adims, hs, Res.ok_bind, hn, Res.ok_bind, broadcastLoops]
  by_cases hP : P = []
  · subst hP
    have e0 : Res.get X.T.strides 0 = .ok (2 * (S ++ C).prod) := by
      have := h.stride_at (k := 0) (by simp)
      rw [this, List.prod_append]; simp
    rw [if_pos (show ([] : List Nat).length = 0 from rfl), e0, Res.ok_bind, hx.tensor.memsize, ← h1]
    show _ = loop 1 m _
    rw [RA.loop_snoc]
    show _ = loop n m _
    refine loop_congr _ _ _ _ fun i _ s => ?_
    simp
  · have hl : 0 < P.length := List.length_pos_of_ne_nil hP
    have hnz := hne.resolve_left hP
    have e1 : Res.get X.T.strides (P.length - 1) = .ok (2 * (n * (S ++ C).prod)) := by
      rw [h.stride_at (by simp; omega), show P.length - 1 + 1 = P.length by omega, List.drop_left, List.prod_cons, List.prod_append]
      congr 1; ring
    have e2 : Res.get x.T.strides (P.length - 1) = .ok (2 * (S ++ C).prod) := by
      rw [hx.stride_at (by simp; omega), show P.length - 1 + 1 = P.length by omega, List.drop_left, List.prod_append]
    have e3 : Res.get X.T.strides P.length = .ok (2 * (S ++ C).prod) := by
      rw [h.stride_at (by simp), show P ++ n :: S = (P ++ [n]) ++ S by simp, List.drop_left' (by simp), List.prod_append]
    have e4 : X.T.memsize / (2 * (n * (S ++ C).prod)) = P.prod := by
      rw [h.tensor.memsize, List.prod_append, List.prod_append, List.prod_cons]
      rw [show 2 * (P.prod * (n * S.prod) * C.prod) = P.prod * (2 * (n * (S ++ C).prod)) by rw [List.prod_append]; ring]
      exact Nat.mul_div_cancel _ (by omega)
    have e5 : Res.need (decide (2 * (n * (S ++ C).prod) ≠ 0)) = .ok () := by
      rw [decide_eq_true (by omega)]; rfl
    rw [if_neg (by omega), e1, Res.ok_bind, e5, Res.ok_bind, e2, Res.ok_bind, e3, Res.ok_bind, e4, ← h1]

/-- Other sizes are refused. -/
theorem C613_sizes_partial {B : List Nat} {x : CBA} {G : List Nat → List Nat → Cx α} (h : X.Is A C F m) {C' : List Nat} (hx : x.Is B C' G m) {ix : Nat} (hi : ix < A.length)
    (hB : B ≠ A.eraseIdx ix) : X.broadcastAlong ix x m = .throw := by
  rw [broadcastAlong]
  by_cases hk : x.ak + 1 = X.ak
  · rw [decide_eq_true hk, Res.assrt_true, Res.ok_bind, h.adims, hx.adims, sizesMatch_eq _ _ hi (by rw [h.ak, hx.ak] at hk; exact hk), if_neg hB]; rfl
  · rw [decide_eq_false hk]; rfl

/-- Along any axis but the first of an array with nothing behind the axis, the function divides by zero. -/
theorem C613_empty_fails {P S : List Nat} {n : Nat} {x : CBA} {G : List Nat → List Nat → Cx α} (h : X.Is (P ++ n :: S) C F m) (hx : x.Is (P ++ S) C G m)
    (hP : P ≠ []) (hn : n * (S ++ C).prod = 0) : X.broadcastAlong P.length x m = .ub := by
  have hl : 0 < P.length := List.length_pos_of_ne_nil hP
  have hk : x.ak + 1 = X.ak := by rw [h.ak, hx.ak]; simp; omega
  have hs : sizesMatch (P ++ n :: S) (P ++ S) P.length = .ok () := by
    rw [sizesMatch_eq _ _ (by simp) (by simp; omega), if_pos]
    rw [List.eraseIdx_append_of_length_le (le_refl _)]; simp
  have hg : Res.get (P ++ n :: S) P.length = .ok n := by simp [Res.get]
  have e1 : Res.get X.T.strides (P.length - 1) = .ok (2 * (n * (S ++ C).prod)) := by
    rw [h.stride_at (by simp; omega), show P.length - 1 + 1 = P.length by omega, List.drop_left, List.prod_cons, List.prod_append]
    congr 1; ring
  rw [broadcastAlong, decide_eq_true hk, Res.assrt_true, Res.ok_bind, h.adims, hx.adims, hs, Res.ok_bind, hg, Res.ok_bind, broadcastLoops, if_neg (by omega), e1, Res.ok_bind, hn]
  rfl

example : ∃ X m1 x m2 m3, filled (fun _ => (0 : Int)) (fun _ => 9) 0 [2, 2] [2] (fun _ => none) = .ok (X, m1) ∧ sequential (fun _ => (9 : Int)) 50 [2] [2] m1 = .ok (x, m2) ∧
    X.broadcastAlong 1 x m2 = .ok m3 ∧ X.get [0, 1] [1] m3 = .ok ⟨1, 0⟩ ∧ X.get [1, 0] [0] m3 = .ok ⟨2, 0⟩ ∧ X.get [1, 1] [1] m3 = .ok ⟨3, 0⟩ := ⟨_, _, _, _, _, rfl, rfl, rfl, rfl, rfl, rfl⟩

/-- A 1×0 array of numbers. -/
theorem C613_witness_fails : ∃ X m1 x m2, filled (fun _ => (0 : Int)) (fun _ => 9) 0 [1, 0] [1] (fun _ => none) = .ok (X, m1) ∧ sequential (fun _ => (9 : Int)) 50 [1] [1] m1 = .ok (x, m2) ∧
    X.broadcastAlong 1 x m2 = .ub := ⟨_, _, _, _, rfl, rfl, rfl⟩

/-! ### C614: adding along an axis -/

theorem insert_app (l r : List Nat) (a : Nat) : (l ++ r).insertIdx l.length a = l ++ a :: r := by
  induction l with
  | nil => simp
  | cons b l ih => simpa using ih

/-- The loops of the function, whatever the axis. -/
theorem reduce_core [Add α] {P S : List Nat} {n : Nat} {x : CBA} {G : List Nat → List Nat → Cx α} (h : X.Is (P ++ S) C F m) (hx : x.Is (P ++ n :: S) C G m) (ha : X.T.Apart x.T) :
    ∃ m', loop P.prod m (fun a m => loop n m fun i m => stdAdd (· + ·) m (x.T.arr + a * (2 * (n * (S ++ C).prod)) + i * (2 * (S ++ C).prod)) (2 * (S ++ C).prod)
        (X.T.arr + a * (2 * (S ++ C).prod))) = .ok m' ∧
      X.Becomes (P ++ S) C (fun ja jc => (List.range n).foldl (fun t i => t + G (ja.insertIdx P.length i) jc) (F ja jc)) m m' := by
  have hE : S ++ C ≠ [] := by simp [h.ne]
  have eX : [P.prod].prod * (S ++ C).prod = (P ++ S).prod * C.prod := by simp only [List.prod_cons, List.prod_nil, List.prod_append]; ring
  have ex : [P.prod, n].prod * (S ++ C).prod = (P ++ n :: S).prod * C.prod := by simp only [List.prod_cons, List.prod_nil, List.prod_append]; ring
  obtain ⟨FY, hY, hF⟩ := h.regroup (B := [P.prod]) (E := S ++ C) hE eX
  obtain ⟨Gx, hx', hG⟩ := hx.regroup (B := [P.prod, n]) (E := S ++ C) hE ex
  have hown : ∀ c, (X.regroup [P.prod] (S ++ C)).T.Owns c → X.T.Owns c := by
    rintro c ⟨k1, k2⟩
    refine ⟨k1, ?_⟩
    have k2 : c < X.T.arr + 2 * ([P.prod] ++ (S ++ C)).prod := k2
    rw [List.prod_append, eX, ← List.prod_append] at k2
    rw [h.tensor.asize]; exact k2
  have hownx : ∀ c, (x.regroup [P.prod, n] (S ++ C)).T.Owns c → x.T.Owns c := by
    rintro c ⟨k1, k2⟩
    refine ⟨k1, ?_⟩
    have k2 : c < x.T.arr + 2 * ([P.prod, n] ++ (S ++ C)).prod := k2
    rw [List.prod_append, ex, ← List.prod_append] at k2
    rw [hx.tensor.asize]; exact k2
  obtain ⟨m', h1, h2⟩ := each hY (fun a f ic => (List.range n).foldl (fun t i => t + Gx [a, i] ic) (f ic)) (fun a m => loop n m fun i m => stdAdd (· + ·) m
      (x.T.arr + a * (2 * (n * (S ++ C).prod)) + i * (2 * (S ++ C).prod)) (2 * (S ++ C).prod) (X.T.arr + a * (2 * (S ++ C).prod))) (by
    intro ia hi m1 F1 hF1 hout
    have hp : position [P.prod] ia < P.prod := by have := position_lt hi; simpa using this
    have hx1 : (x.regroup [P.prod, n] (S ++ C)).Is [P.prod, n] (S ++ C) Gx m1 := ⟨hE, hx'.tensor.keep fun c hc => hout c fun k => ha c (hown c k) (hownx c hc), hx'.ak⟩
    have hcell := hF1.partIs hi
    have run : ∀ k, k ≤ n → ∃ m2, loop k m1 (fun i m => stdAdd (· + ·) m (x.T.arr + position [P.prod] ia * (2 * (n * (S ++ C).prod)) + i * (2 * (S ++ C).prod)) (2 * (S ++ C).prod)
        (X.T.arr + position [P.prod] ia * (2 * (S ++ C).prod))) = .ok m2 ∧ ((X.regroup [P.prod] (S ++ C)).part (S ++ C) (position [P.prod] ia)).Becomes (S ++ C)
          (fun ic => (List.range k).foldl (fun t i => t + Gx [position [P.prod] ia, i] ic) (F1 ia ic)) m1 m2 := by
      intro k
      induction k with
      | zero => exact fun _ => ⟨m1, rfl, hcell, fun _ _ => rfl⟩
      | succ k ih =>
        intro hk
        obtain ⟨m2, g1, g2⟩ := ih (by omega)
        have hpx : InRange [position [P.prod] ia, k] [P.prod, n] := .cons hp (.cons (by omega) .nil)
        have hap : ((X.regroup [P.prod] (S ++ C)).part (S ++ C) (position [P.prod] ia)).Apart (x.regroup [P.prod, n] (S ++ C)).T := fun c hc k =>
          ha c (hown c (hF1.part_owns (position_lt hi) hc)) (hownx c k)
        have hx2 : (x.regroup [P.prod, n] (S ++ C)).Is [P.prod, n] (S ++ C) Gx m2 := ⟨hE, hx1.tensor.stays g2 hap, hx1.ak⟩
        obtain ⟨m3, f1, f2⟩ := CB.zipMem_ok (· + ·) g2.1 (hx2.partIs hpx) (.inl fun c hc k => hap c hc (hx2.part_owns (position_lt hpx) k))
        refine ⟨m3, ?_, ?_, fun c hc => (f2.2 c hc).trans (g2.2 c hc)⟩
        · rw [RA.loop_snoc, g1, Res.ok_bind, ← f1]
          show loop _ _ _ = loop (2 * (S ++ C).prod) m2 fun i m => updCell (· + ·) m (X.T.arr + 2 * (position [P.prod] ia * (S ++ C).prod) + i)
            (x.T.arr + 2 * (position [P.prod, n] [position [P.prod] ia, k] * (S ++ C).prod) + i)
          have e1 : X.T.arr + position [P.prod] ia * (2 * (S ++ C).prod) = X.T.arr + 2 * (position [P.prod] ia * (S ++ C).prod) := by ring
          have e2 : x.T.arr + position [P.prod] ia * (2 * (n * (S ++ C).prod)) + k * (2 * (S ++ C).prod) =
              x.T.arr + 2 * (position [P.prod, n] [position [P.prod] ia, k] * (S ++ C).prod) := by
            rw [show position [P.prod, n] [position [P.prod] ia, k] = position [P.prod] ia * n + k by simp [position]]; ring
          rw [e1, e2]
        · have e : (fun ic => (List.range (k + 1)).foldl (fun t i => t + Gx [position [P.prod] ia, i] ic) (F1 ia ic)) =
              fun ic => (⟨((List.range k).foldl (fun t i => t + Gx [position [P.prod] ia, i] ic) (F1 ia ic)).re + (Gx [position [P.prod] ia, k] ic).re,
                ((List.range k).foldl (fun t i => t + Gx [position [P.prod] ia, i] ic) (F1 ia ic)).im + (Gx [position [P.prod] ia, k] ic).im⟩ : Cx α) := by
            funext ic
            rw [List.range_succ, List.foldl_append]
            rfl
          rw [e]
          exact f2.1
    obtain ⟨m2, g1, g2⟩ := run n le_rfl
    exact ⟨m2, g1, hF1.one hi g2⟩)
  refine ⟨m', by rw [← h1]; simp, h.ungroup eX h2 fun ia ic ib ie h3 h4 h5 h6 e => ?_⟩
  have hp : position [P.prod] ib < P.prod := by have := position_lt h5; simpa using this
  obtain ⟨k1, k3⟩ := GT.inRange_split h3
  obtain ⟨ip, hip⟩ : ∃ ip, ip = ia.take P.length := ⟨_, rfl⟩
  obtain ⟨is, his⟩ : ∃ is, is = ia.drop P.length := ⟨_, rfl⟩
  rw [← hip] at k1
  rw [← his] at k3
  have hia : ia = ip ++ is := by rw [hip, his, List.take_append_drop]
  have hlist := position_inj (ix := position P ip :: (is ++ ic)) (jx := position [P.prod] ib :: ie) (dims := P.prod :: (S ++ C))
    (.cons (position_lt k1) (GT.inRange_app k3 h4)) (.cons hp h6) (by
      rw [hia, GT.position_app k1.length] at e
      simp only [position, GT.position_app k3.length, List.prod_append] at e ⊢
      rw [← e]
      ring)
  injection hlist with r1 r2
  have hFe := hF ia ic ib ie h3 h4 h5 h6 e
  show (List.range n).foldl (fun t i => t + Gx [position [P.prod] ib, i] ie) (FY ib ie) = _
  rw [hFe]
  have hfold : ∀ l : List Nat, (∀ i ∈ l, i < n) → ∀ v : Cx α, l.foldl (fun t i => t + Gx [position [P.prod] ib, i] ie) v = l.foldl (fun t i => t + G (ia.insertIdx P.length i) ic) v := by
    intro l
    induction l with
    | nil => exact fun _ _ => rfl
    | cons i l ih =>
      intro hl v
      have hin := hl i (by simp)
      have hins : ia.insertIdx P.length i = ip ++ i :: is := by
        rw [hia, ← k1.length, insert_app]
      have : Gx [position [P.prod] ib, i] ie = G (ia.insertIdx P.length i) ic := by
        rw [hins]
        refine hG _ _ _ _ (GT.inRange_app k1 (.cons hin k3)) h4 (.cons hp (.cons hin .nil)) h6 ?_
        rw [GT.position_app k1.length, ← r2, GT.position_app k3.length, ← r1]
        simp only [position, List.prod_cons, List.prod_nil, List.prod_append]
        ring
      rw [List.foldl_cons, List.foldl_cons, this]
      exact ih (fun j hj => hl j (by simp [hj])) _
  exact hfold _ (fun i hi => List.mem_range.1 hi) _

/-- The check of the sizes lets the right sizes pass. -/
theorem reduceMatch_ok (P S : List Nat) (n : Nat) : reduceMatch (P ++ S) (P ++ n :: S) P.length = .ok () := by
  unfold reduceMatch
  rw [show Res.need (decide (P.length ≤ (P ++ S).length)) = .ok () by rw [decide_eq_true (by simp)]; rfl, Res.ok_bind]
  rw [guards (c := fun k => S.getD k 0 = S.getD k 0) fun k hk => ?_, if_pos fun _ _ => rfl]
  have hk : k < S.length := by simp at hk; omega
  have h1 : (P ++ n :: S)[P.length + 1 + k]? = some (S.getD k 0) := by
    rw [List.getElem?_append_right (by omega), show P.length + 1 + k - P.length = k + 1 by omega, List.getElem?_cons_succ, List.getD_eq_getElem?_getD, List.getElem?_eq_getElem hk]; rfl
  have h2 : (P ++ S)[P.length + k]? = some (S.getD k 0) := by
    rw [List.getElem?_append_right (by omega), show P.length + k - P.length = k by omega, List.getD_eq_getElem?_getD, List.getElem?_eq_getElem hk]; rfl
  simp only [Res.get, h1, h2, Res.ok_bind]

theorem C614_reduce_partial [Add α] {P S : List Nat} {n : Nat} {x : CBA} {G : List Nat → List Nat → Cx α} (h : X.Is (P ++ S) C F m) (hx : x.Is (P ++ n :: S) C G m) (ha : X.T.Apart x.T)
    (hne : P = [] ∨ n * (S ++ C).prod ≠ 0) : ∃ m', X.addReduce x P.length m = .ok m' ∧
      X.Becomes (P ++ S) C (fun ja jc => (List.range n).foldl (fun t i => t + G (ja.insertIdx P.length i) jc) (F ja jc)) m m' := by
  obtain ⟨m', h1, h2⟩ := reduce_core h hx ha
  refine ⟨m', ?_, h2⟩
  have hk : X.ak + 1 = x.ak := by rw [h.ak, hx.ak]; simp; omega
  have hn : Res.get (P ++ n :: S) P.length = .ok n := by simp [Res.get]
  rw [addReduce, show (decide (X.ak + 1 = x.ak) || decide (x.ak = 1)) = true by rw [decide_eq_true hk]; rfl, Res.assrt_true, Res.ok_bind, h.adims, hx.adims, reduceMatch_ok, Res.ok_bind, hn,
    Res.ok_bind, reduceLoops]
  by_cases hP : P = []
  · subst hP
    have e0 : Res.get x.T.strides 0 = .ok (2 * (S ++ C).prod) := by
      have := hx.stride_at (k := 0) (by simp)
      rw [this, List.prod_append]; simp
    rw [if_pos (show ([] : List Nat).length = 0 from rfl), e0, Res.ok_bind, ← h1]
    show _ = loop 1 m _
    rw [RA.loop_snoc]
    show _ = loop n m _
    refine loop_congr _ _ _ _ fun i _ s => ?_
    simp
  · have hl : 0 < P.length := List.length_pos_of_ne_nil hP
    have hnz := hne.resolve_left hP
    have e1 : Res.get x.T.strides (P.length - 1) = .ok (2 * (n * (S ++ C).prod)) := by
      rw [hx.stride_at (by simp; omega), show P.length - 1 + 1 = P.length by omega, List.drop_left, List.prod_cons, List.prod_append]
      congr 1; ring
    have e2 : Res.get X.T.strides (P.length - 1) = .ok (2 * (S ++ C).prod) := by
      rw [h.stride_at (by simp; omega), show P.length - 1 + 1 = P.length by omega, List.drop_left, List.prod_append]
    have e3 : Res.get x.T.strides P.length = .ok (2 * (S ++ C).prod) := by
      rw [hx.stride_at (by simp), show P ++ n :: S = (P ++ [n]) ++ S by simp, List.drop_left' (by simp), List.prod_append]
    have e4 : x.T.memsize / (2 * (n * (S ++ C).prod)) = P.prod := by
      rw [hx.tensor.memsize, List.prod_append, List.prod_append, List.prod_cons]
      rw [show 2 * (P.prod * (n * S.prod) * C.prod) = P.prod * (2 * (n * (S ++ C).prod)) by rw [List.prod_append]; ring]
      exact Nat.mul_div_cancel _ (by omega)
    have e5 : Res.need (decide (2 * (n * (S ++ C).prod) ≠ 0)) = .ok () := by
      rw [decide_eq_true (by omega)]; rfl
    rw [if_neg (by omega), e1, Res.ok_bind, e5, Res.ok_bind, e2, Res.ok_bind, e3, Res.ok_bind, e4, ← h1]

/-- The sizes of the arrays before the axis, and the last one, are not compared: adding up a 2×2 array along its first axis into an array of one number passes the check and writes behind
the end. -/
theorem C614_sizes_fails : ∃ X m1 x m2, filled (fun _ => (0 : Int)) (fun _ => 9) 0 [1] [1] (fun _ => none) = .ok (X, m1) ∧ sequential (fun _ => (9 : Int)) 50 [2, 2] [1] m1 = .ok (x, m2) ∧
    X.addReduce x 0 m2 = .ub := ⟨_, _, _, _, rfl, rfl, rfl⟩

/-- Along any axis but the first of an array with nothing behind the axis, the function divides by zero. -/
theorem C614_empty_fails [Add α] {P S : List Nat} {n : Nat} {x : CBA} {G : List Nat → List Nat → Cx α} (h : X.Is (P ++ S) C F m) (hx : x.Is (P ++ n :: S) C G m)
    (hP : P ≠ []) (hn : n * (S ++ C).prod = 0) : X.addReduce x P.length m = .ub := by
  have hl : 0 < P.length := List.length_pos_of_ne_nil hP
  have hk : X.ak + 1 = x.ak := by rw [h.ak, hx.ak]; simp; omega
  have hg : Res.get (P ++ n :: S) P.length = .ok n := by simp [Res.get]
  have e1 : Res.get x.T.strides (P.length - 1) = .ok (2 * (n * (S ++ C).prod)) := by
    rw [hx.stride_at (by simp; omega), show P.length - 1 + 1 = P.length by omega, List.drop_left, List.prod_cons, List.prod_append]
    congr 1; ring
  rw [addReduce, show (decide (X.ak + 1 = x.ak) || decide (x.ak = 1)) = true by rw [decide_eq_true hk]; rfl, Res.assrt_true, Res.ok_bind, h.adims, hx.adims, reduceMatch_ok, Res.ok_bind, hg,
    Res.ok_bind, reduceLoops, if_neg (by omega), e1, Res.ok_bind, hn]
  rfl

example : ∃ X m1 x m2 m3, filled (fun _ => (5 : Int)) (fun _ => 9) 0 [2] [2] (fun _ => none) = .ok (X, m1) ∧ sequential (fun _ => (9 : Int)) 50 [2, 2] [2] m1 = .ok (x, m2) ∧
    X.addReduce x 1 m2 = .ok m3 ∧ X.get [0] [1] m3 = .ok ⟨9, 5⟩ ∧ X.get [1] [0] m3 = .ok ⟨15, 5⟩ := ⟨_, _, _, _, _, rfl, rfl, rfl, rfl, rfl⟩

end CBA

end Cnine
