import Verif.Lemmas.Einsum2Convo
import Verif.Props.Einsum2

/-! # C29: convolution letters -/

namespace Cnine
namespace Einsum

variable {α : Type}

def P2.setLim (p : P2) (l : Nat → Bool) : P2 := { p with lim := l }

/-- `lim` after `convolve_back` on `n` letters starting at counter `i`. -/
def limOn (i n : Nat) (l : Nat → Bool) : Nat → Bool := fun j => if i ≤ j ∧ j < i + n then true else l j

theorem contract_lim (i : Nat) (l : List (List Nat × List Nat)) (x y : View) (p : P2) (L : Nat → Bool) :
    P2.contract i l x y (p.setLim L) = (do
      let q ← P2.contract i l x y p
      .ok (q.1, q.2.setLim L)) := by
  induction l generalizing i p with
  | nil => rfl
  | cons a l ih =>
    simp only [P2.contract, P2.setLim]
    cases dimAt x.dims a.1 <;> simp only [Res.ok_bind, Res.throw_bind, Res.ub_bind]
    cases dimAt y.dims a.2 <;> simp only [Res.ok_bind, Res.throw_bind, Res.ub_bind]
    rename_i d e
    cases put p.cd i (min d e) <;> simp only [Res.ok_bind, Res.throw_bind, Res.ub_bind]
    cases combine x.strides a.1 <;> simp only [Res.ok_bind, Res.throw_bind, Res.ub_bind]
    rename_i b
    cases put p.csx i b <;> simp only [Res.ok_bind, Res.throw_bind, Res.ub_bind]
    cases combine y.strides a.2 <;> simp only [Res.ok_bind, Res.throw_bind, Res.ub_bind]
    rename_i b
    cases put p.csy i b <;> simp only [Res.ok_bind, Res.throw_bind, Res.ub_bind]
    rename_i c1 _ c2 c3
    exact ih (i + 1) { p with cd := c1, csx := c2, csy := c3 }

theorem convolveBack_eq (i : Nat) (l : List (List Nat × List Nat)) (x y : View) (p : P2) :
    P2.convolveBack i l x y p = (do
      let q ← P2.contract i l x y p
      .ok (q.1, q.2.setLim (limOn i l.length p.lim))) := by
  induction l generalizing i p with
  | nil =>
    simp only [P2.convolveBack, P2.contract, Res.ok_bind, P2.setLim]
    congr 2
    have : limOn i ([] : List (List Nat × List Nat)).length p.lim = p.lim := by
      funext j
      simp only [limOn, List.length_nil]
      rw [if_neg (by omega)]
    rw [this]
  | cons a l ih =>
    simp only [P2.contract, P2.convolveBack]
    cases dimAt x.dims a.1 <;> simp only [Res.ok_bind, Res.throw_bind, Res.ub_bind]
    cases dimAt y.dims a.2 <;> simp only [Res.ok_bind, Res.throw_bind, Res.ub_bind]
    rename_i d e
    cases h1 : put p.cd i (min d e) <;> simp only [Res.ok_bind, Res.throw_bind, Res.ub_bind]
    cases combine x.strides a.1 <;> simp only [Res.ok_bind, Res.throw_bind, Res.ub_bind]
    rename_i b
    cases put p.csx i b <;> simp only [Res.ok_bind, Res.throw_bind, Res.ub_bind]
    cases combine y.strides a.2 <;> simp only [Res.ok_bind, Res.throw_bind, Res.ub_bind]
    rename_i b
    cases put p.csy i b <;> simp only [Res.ok_bind, Res.throw_bind, Res.ub_bind]
    rename_i c1 _ c2 c3
    have hi : i < 4 := by
      by_contra hi
      rw [put, if_neg hi] at h1
      cases h1
    rw [put, if_pos hi, Res.ok_bind, ih]
    have := contract_lim (i + 1) l x y { p with cd := c1, csx := c2, csy := c3 } (fun j => if j = i then true else p.lim j)
    rw [show ({ p with cd := c1, csx := c2, csy := c3, lim := fun j => if j = i then true else p.lim j } : P2) =
      ({ p with cd := c1, csx := c2, csy := c3 } : P2).setLim (fun j => if j = i then true else p.lim j) from rfl, this]
    cases P2.contract (i + 1) l x y { p with cd := c1, csx := c2, csy := c3 } <;>
      simp only [Res.ok_bind, Res.throw_bind, Res.ub_bind]
    congr 2
    simp only [P2.setLim]
    congr 1
    funext j
    simp only [limOn, List.length_cons]
    by_cases h1 : j = i
    · subst h1
      rw [if_neg (by omega), if_pos rfl, if_pos (by omega)]
    · rw [if_neg h1]
      by_cases h2 : i + 1 ≤ j ∧ j < i + 1 + l.length
      · rw [if_pos h2, if_pos (by omega)]
      · rw [if_neg h2, if_neg (by omega)]

theorem bind_ok' {β γ : Type} {x : Res β} {f : β → Res γ} {c : γ} (h : (x >>= f) = .ok c) : ∃ b, x = .ok b ∧ f b = .ok c := by
  cases x with
  | ok b => exact ⟨b, rfl, h⟩
  | throw => cases h
  | ub => cases h

theorem transfer1_lim (i : Nat) (l : List (List Nat × List Nat)) (x r : View) (p : P2) (q : Nat × P2)
    (h : P2.transfer1 i l x r p = .ok q) : q.2.lim = p.lim := by
  induction l generalizing i p with
  | nil => cases h; rfl
  | cons a l ih =>
    simp only [P2.transfer1] at h
    obtain ⟨d, -, h⟩ := bind_ok' h
    obtain ⟨e1, -, h⟩ := bind_ok' h
    obtain ⟨e2, -, h⟩ := bind_ok' h
    obtain ⟨e3, -, h⟩ := bind_ok' h
    obtain ⟨e4, -, h⟩ := bind_ok' h
    obtain ⟨e5, -, h⟩ := bind_ok' h
    have := ih _ _ h
    exact this

theorem transfer2_lim (i : Nat) (l : List (List Nat × List Nat)) (x r : View) (p : P2) (q : Nat × P2)
    (h : P2.transfer2 i l x r p = .ok q) : q.2.lim = p.lim := by
  induction l generalizing i p with
  | nil => cases h; rfl
  | cons a l ih =>
    simp only [P2.transfer2] at h
    obtain ⟨d, -, h⟩ := bind_ok' h
    obtain ⟨e1, -, h⟩ := bind_ok' h
    obtain ⟨e2, -, h⟩ := bind_ok' h
    obtain ⟨e3, -, h⟩ := bind_ok' h
    obtain ⟨e4, -, h⟩ := bind_ok' h
    obtain ⟨e5, -, h⟩ := bind_ok' h
    have := ih _ _ h
    exact this

theorem transfer12_lim (i : Nat) (l : List (List Nat × List Nat × List Nat)) (x y r : View) (p : P2) (q : Nat × P2)
    (h : P2.transfer12 i l x y r p = .ok q) : q.2.lim = p.lim := by
  induction l generalizing i p with
  | nil => cases h; rfl
  | cons a l ih =>
    simp only [P2.transfer12] at h
    obtain ⟨d, -, h⟩ := bind_ok' h
    obtain ⟨e1, -, h⟩ := bind_ok' h
    obtain ⟨e2, -, h⟩ := bind_ok' h
    obtain ⟨e3, -, h⟩ := bind_ok' h
    obtain ⟨e4, -, h⟩ := bind_ok' h
    obtain ⟨e5, -, h⟩ := bind_ok' h
    obtain ⟨e6, -, h⟩ := bind_ok' h
    obtain ⟨e7, -, h⟩ := bind_ok' h
    have := ih _ _ h
    exact this

/-- The builders of `make_params_back0` are the generic ones plus the flags. -/
theorem back0_params (f : Form2) (x r y : View) (hck : f.check = .ok ()) (pa : P2)
    (h : gparams f.bcasts f.ysums f.xsums (f.conv.map fun t => (t.2.2, t.1)) (f.xr.map fun t => (t.2, t.1))
      (f.xy.map fun t => (t.2, t.1)) [] (f.transfers.map fun t => (t.2.2, t.2.1, t.1))
      (f.conv.map fun t => (t.2.2, t.2.1)) (f.yr.map fun t => (t.2, t.1)) x r y = .ok pa) :
    makeParamsBack0 f x r y = .ok (pa.setLim fun i => decide (i < f.conv.length)) := by
  unfold gparams at h
  unfold makeParamsBack0
  rw [hck, Res.ok_bind]
  obtain ⟨a, ha, h⟩ := bind_ok' h
  obtain ⟨b, hb, h⟩ := bind_ok' h
  obtain ⟨c, hc, h⟩ := bind_ok' h
  dsimp only at h
  obtain ⟨q1, h1, h⟩ := bind_ok' h
  obtain ⟨q2, h2, h⟩ := bind_ok' h
  obtain ⟨q3, h3, h⟩ := bind_ok' h
  obtain ⟨q3', h3', h⟩ := bind_ok' h
  obtain ⟨q4, h4, h⟩ := bind_ok' h
  obtain ⟨q5, h5, h⟩ := bind_ok' h
  obtain ⟨q6, h6, h⟩ := bind_ok' h
  cases h
  cases h3'
  have l1 := transfer1_lim _ _ _ _ _ _ h1
  have l2 := transfer1_lim _ _ _ _ _ _ h2
  have l3 := transfer2_lim _ _ _ _ _ _ h3
  have l4 := transfer12_lim _ _ _ _ _ _ _ h4
  have hl : q4.2.lim = fun _ => false := by rw [l4]; dsimp only; rw [l3, l2, l1]
  rw [ha, Res.ok_bind, hb, Res.ok_bind, hc, Res.ok_bind]
  dsimp only
  rw [h1, Res.ok_bind, h2, Res.ok_bind, h3, Res.ok_bind]
  dsimp only at h4
  rw [h4, Res.ok_bind, convolveBack_eq, h5, Res.ok_bind, Res.ok_bind]
  dsimp only
  rw [contract_lim, h6, Res.ok_bind, Res.ok_bind]
  dsimp only
  congr 2
  funext j
  simp only [limOn, hl, List.length_map]
  by_cases hj : j < f.conv.length <;> simp [hj]

theorem sumOver_zero [AddCommMonoid α] (len : Char → Nat) (A : List Char) (ρ : Char → Nat) :
    sumOver len (fun _ => (0 : α)) A ρ = 0 := by
  induction A generalizing ρ with
  | nil => rfl
  | cons c A ih => simp [sumOver, ih]

/-- The sums inside the limited loops, gathered into one. -/
theorem convo_gather [NonUnitalNonAssocSemiring α] (ps qs V SP SQ : List Char) (hSP : ∀ c ∈ SP, c ∉ qs ∧ c ∉ V)
    (hSQ : ∀ c ∈ SQ, c ∉ ps ∧ c ∉ V) (len lp dr : Char → Nat) (hl : ∀ c ∈ SP, lp c = len c) (P Q : List Nat → α)
    (ρ κ : Char → Nat) :
    (if ∀ k ∈ V, κ k ≤ ρ k ∧ ρ k < κ k + dr k then
        sumOver lp (fun σ => P (ps.map fun k => if k ∈ V then ρ k - σ k else σ k)) SP κ *
        sumOver len (fun σ => Q (qs.map σ)) SQ κ else 0) =
    sumOver len (fun σ => if ∀ c ∈ V, σ c ≤ ρ c ∧ ρ c - σ c < dr c then
      P (ps.map fun c => if c ∈ V then ρ c - σ c else σ c) * Q (qs.map σ) else 0) (SP ++ SQ) κ := by
  have hcond : ∀ σ : Char → Nat, (∀ c ∉ SP ++ SQ, σ c = κ c) →
      ((∀ c ∈ V, σ c ≤ ρ c ∧ ρ c - σ c < dr c) ↔ ∀ k ∈ V, κ k ≤ ρ k ∧ ρ k < κ k + dr k) := by
    intro σ hσ
    apply forall_congr'
    intro c
    apply imp_congr_right
    intro hc
    have : c ∉ SP ++ SQ := by
      rw [List.mem_append]
      rintro (h | h)
      · exact (hSP c h).2 hc
      · exact (hSQ c h).2 hc
    rw [hσ c this]
    omega
  by_cases hk : ∀ k ∈ V, κ k ≤ ρ k ∧ ρ k < κ k + dr k
  · rw [if_pos hk, sumOver_len_congr _ SP κ hl]
    have := sumOver_prod len (fun σ => P (ps.map fun k => if k ∈ V then ρ k - σ k else σ k)) (fun σ => Q (qs.map σ))
      (s := ps) (s' := qs) (fun σ σ' h => by
        dsimp only
        congr 1
        apply List.map_congr_left
        intro c hc
        rw [h c hc]) (fun σ σ' h => by
        dsimp only
        congr 1
        apply List.map_congr_left
        intro c hc
        rw [h c hc]) SP SQ (fun c hc => (hSP c hc).1) (fun c hc => (hSQ c hc).1) κ
    rw [this]
    apply sumOver_congr
    intro σ _ hσ
    rw [if_pos ((hcond σ hσ).2 hk)]
  · rw [if_neg hk]
    refine (sumOver_zero (α := α) len (SP ++ SQ) κ).symm.trans ?_
    apply sumOver_congr
    intro σ _ hσ
    rw [if_neg fun h => hk ((hcond σ hσ).1 h)]

set_option maxHeartbeats 800000 in
/-- The backward pass into the first operand with convolution letters: `x_i` gains the sum, over the `j` for which `i-j` is a
valid index of r, of `r_(i-j) y_j`.  r must have the extent `dim(x)-dim(y)+1` that `operator()` gives it, and y must not be
longer than r. -/
theorem C29_back0_partial [NonUnitalNonAssocSemiring α] (xs ys rs : List Char) (hx : '_' ∉ xs) (hy : '_' ∉ ys)
    (hr : '_' ∉ rs) (hs : NoSpecial xs ys rs) (hc : convs xs ys rs ≠ []) (hf : Few xs ys rs)
    (h3 : (common xs (rs ++ ys)).length ≤ 3) (hC3 : (inFirst rs ys xs).length + (convs xs ys rs).length ≤ 3)
    (len dx dr : Char → Nat) (hcv : ∀ c ∈ convs xs ys rs, len c ≤ dr c ∧ dr c + len c = dx c + 1)
    (r x y : View) (hrd : r.dims = rs.map fun c => if c ∈ convs xs ys rs then dr c else len c)
    (hxd : x.dims = xs.map fun c => if c ∈ convs xs ys rs then dx c else len c) (hyd : y.dims = ys.map len)
    (hrw : r.WF) (hxw : x.WF) (hyw : y.WF) (hdist : x.Distinct) (hax : x.Apart r) (hay : x.Apart y)
    (m : Buf α) (G X Y : List Nat → α)
    (hG : ∀ ix, InRange ix r.dims → r.val m ix = some (G ix))
    (hX : ∀ ix, InRange ix x.dims → x.val m ix = some (X ix))
    (hY : ∀ ix, InRange ix y.dims → y.val m ix = some (Y ix)) :
    ∃ m', addEinsum2Back0 (form2 xs ys rs) x r y m = .ok m' ∧
      (∀ ρ, InRange (xs.map ρ) x.dims → x.val m' (xs.map ρ) = some (X (xs.map ρ) +
        sumOver len (fun σ => if ∀ c ∈ convs xs ys rs, σ c ≤ ρ c ∧ ρ c - σ c < dr c then
          G (rs.map fun c => if c ∈ convs xs ys rs then ρ c - σ c else σ c) * Y (ys.map σ) else 0)
          (onlyIn (rs ++ ys) xs ++ convs xs ys rs) ρ)) ∧
      ∀ c, (∀ ρ, InRange (xs.map ρ) x.dims → c ≠ x.cell (xs.map ρ)) → m' c = m c := by
  set V := convs xs ys rs with hVe
  set lr : Char → Nat := fun c => if c ∈ V then dr c else len c with hlr
  set lx : Char → Nat := fun c => if c ∈ V then dx c else len c with hlx
  have hV : ∀ c ∈ V, c ∈ rs ∧ c ∈ xs ∧ c ∈ ys := fun c h => (mem_convs.1 h).1
  have hrl : rs.length = r.strides.length := by rw [hrw, hrd, List.length_map]
  have hxl : xs.length = x.strides.length := by rw [hxw, hxd, List.length_map]
  have hyl : ys.length = y.strides.length := by rw [hyw, hyd, List.length_map]
  have hin : ∀ (s : List Char) (l ρ : Char → Nat), InRange (s.map ρ) (s.map l) ↔ Fits l s ρ := by
    intro s l ρ
    unfold InRange Fits
    rw [List.forall₂_map_left_iff, List.forall₂_map_right_iff, List.forall₂_same]
  have mE : ∀ c, c ∈ plain3 xs ys rs ↔ (c ∈ rs ∧ c ∈ xs ∧ c ∈ ys) ∧ c ∉ V := by
    intro c
    constructor
    · intro h; exact ⟨(mem_plain3.1 h).1, plain3_not_conv h⟩
    · rintro ⟨⟨h1, h2, h3⟩, h4⟩
      exact (hs.mem_all h1 h2 h3).resolve_left h4
  set T' := inFirst rs xs ys ++ inFirst xs ys rs ++ plain3 xs ys rs with hT'e
  have mT' : ∀ c, c ∈ T' ↔ c ∈ xs ∧ (c ∈ rs ∨ c ∈ ys) ∧ c ∉ V := by
    intro c
    have := hV c
    rw [hT'e, List.mem_append, List.mem_append, mem_inFirst, mem_inFirst, mE]
    tauto
  have nV : V.Nodup := (inAll_nodup _ _ _).filter _
  have nT' : T'.Nodup := by
    refine nodup_app (nodup_app (inFirst_nodup _ _ _) (inFirst_nodup _ _ _) ?_) ((inAll_nodup _ _ _).filter _) ?_
    · intro a; rw [mem_inFirst, mem_inFirst]; tauto
    · intro a; rw [List.mem_append, mem_inFirst, mem_inFirst, mE]; tauto
  have nT : (V ++ T').Nodup := nodup_app nV nT' (by intro a; rw [mT']; tauto)
  have nC : (V ++ inFirst rs ys xs).Nodup := nodup_app nV (inFirst_nodup _ _ _) (by
    intro a h; rw [mem_inFirst]; have := hV a h; tauto)
  have hT4 : (V ++ T').length ≤ 3 := by
    refine le_trans (List.Subperm.length_le (nT.subperm ?_)) h3
    intro c hc
    rw [mem_common, List.mem_append]
    rcases List.mem_append.1 hc with h | h
    · have := hV c h; tauto
    · have := (mT' c).1 h; tauto
  have hC3' : (V ++ inFirst rs ys xs).length ≤ 3 := by rw [List.length_append]; omega
  obtain ⟨a1, a2, a3, a4, a5, a6, a7, a8, a9⟩ := form2_groups hx hy hr hs
  have gp := gparams_eq xs rs ys (inNone rs xs ys) (inNone ys rs xs) (inNone xs rs ys) V (inFirst rs xs ys)
    (inFirst xs ys rs) [] (plain3 xs ys rs) V (inFirst rs ys xs) [] V lx lr len len x r y hxd hrd hyd hxw hrw hyw
    (fun c hc => (mem_inNone.1 hc).1) (fun c hc => (mem_inNone.1 hc).1) (fun c hc => (mem_inNone.1 hc).1)
    hf.bcast hf.ysum hf.xsum
    (by
      intro c hc
      rcases List.mem_append.1 hc with h | h
      · have := hV c h
        exact ⟨this.2.1, this.1, fun _ => h, by simp⟩
      · have := mem_inFirst.1 h
        exact ⟨this.2.1, this.1, fun h' => absurd h' this.2.2, by simp⟩)
    (by
      intro c hc
      rw [List.append_nil] at hc
      have := mem_inFirst.1 hc
      exact ⟨this.1, this.2.1, fun h' => absurd h' this.2.2, fun h => this.2.2 (hV c h).1⟩)
    (by
      intro c hc
      have h := (mE c).1 hc
      exact ⟨h.1.2.1, h.1.1, h.1.2.2, by simp, h.2, by simp only [hlr, hlx, if_neg h.2]⟩)
    (by
      intro c hc
      rcases List.mem_append.1 hc with h | h
      · have := hV c h
        exact ⟨this.1, this.2.2, by simp only [hlr, if_pos h]; exact Nat.min_eq_right (hcv c h).1⟩
      · have h' := mem_inFirst.1 h
        have hv : c ∉ V := fun hv => h'.2.2 (hV c hv).2.1
        exact ⟨h'.1, h'.2.1, by simp only [hlr, if_neg hv, Nat.min_self]⟩)
    (by
      have := hT4
      simp only [hT'e, List.length_append, List.length_nil] at this ⊢
      omega) (by omega)
  have eT : V ++ inFirst rs xs ys ++ inFirst xs ys rs ++ [] ++ plain3 xs ys rs = V ++ T' := by
    simp only [hT'e, List.append_nil, List.append_assoc]
  rw [eT] at gp
  have opY : Operand ys (V ++ T') (V ++ inFirst rs ys xs) (inNone ys rs xs) V [] lx len len := by
    have mT : ∀ c, c ∈ V ++ T' ↔ c ∈ xs ∧ (c ∈ rs ∨ c ∈ ys) := by
      intro c; have := hV c; rw [List.mem_append, mT']; by_cases c ∈ V <;> tauto
    have mC : ∀ c, c ∈ V ++ inFirst rs ys xs ↔ c ∈ V ∨ (c ∈ rs ∧ c ∈ ys ∧ c ∉ xs) := by
      intro c; rw [List.mem_append, mem_inFirst]
    refine ⟨inNone_nodup _ _ _, hf.ysum, ?_, ?_, ?_, ?_, ?_, ?_, ?_, ?_, ?_⟩
    · intro k; rw [mem_inNone, mT]; tauto
    · intro k; have := hV k; rw [mem_inNone, mC]; tauto
    · simp
    · intro k; rw [mem_inNone, mT, mC]; tauto
    · intro k hk
      rw [mT, mC]
      simp only [List.not_mem_nil, false_iff]
      tauto
    · intro k _ h
      exact (mC k).2 (Or.inl h)
    · intro k _ _ hC
      have : k ∉ V := fun h => hC ((mC k).2 (Or.inl h))
      simp only [hlx, if_neg this, le_refl]
    · intros; exact le_refl _
    · simp
  obtain ⟨m', h1, h2, h3⟩ := convo_letters x r y xs rs ys V T' (inFirst rs ys xs) (inNone rs xs ys) (inNone ys rs xs)
    (inNone xs rs ys) lx lr len dr hxl hrl hyl (distinct_letters hxd hdist) (apart_letters hxd hrd hax)
    (apart_letters hxd hyd hay)
    (nodup_app nT (inNone_nodup _ _ _) (by
      intro a; have := hV a; rw [List.mem_append, mT', mem_inNone]; tauto))
    (by
      intro c; have := hV c; rw [List.mem_append, List.mem_append, mT', mem_inNone]; by_cases c ∈ V <;> tauto)
    nC (by intro k; rw [mT', mem_inFirst]; tauto) (inNone_nodup _ _ _) hf.bcast
    (by intro k; have := hV k; rw [mem_inNone, List.mem_append, mT']; tauto)
    (by intro k; have := hV k; rw [mem_inNone, List.mem_append, mem_inFirst]; tauto)
    (by intro k; rw [mT', mem_inFirst, mem_inNone]; tauto)
    (by
      intro k _ h
      simp only [hlx, hlr, if_neg ((mT' k).1 h).2.2, le_refl])
    (by
      intro k _ h
      have hv : k ∉ V := fun hv => (mem_inFirst.1 h).2.2 (hV k hv).2.1
      simp only [hlr, if_neg hv, le_refl])
    (by
      intro k hk
      simp only [hlr, hlx, if_pos hk]
      exact ⟨trivial, (hcv k hk).2⟩)
    opY (by omega) hC3' hf.xsum
    (fun c hc => absurd (List.getElem?_eq_some_iff.1 hc).1 (by omega)) m X G Y
    (fun ρ hρ => hX _ (by rw [hxd]; exact (hin _ _ _).2 hρ)) (fun ρ hρ => hG _ (by rw [hrd]; exact (hin _ _ _).2 hρ))
    (fun ρ hρ => hY _ (by rw [hyd]; exact (hin _ _ _).2 hρ)) _ rfl
  have perm : (V ++ inFirst rs ys xs ++ (inNone rs xs ys ++ inNone ys rs xs)).Perm (onlyIn (rs ++ ys) xs ++ V) := by
    rw [List.perm_ext_iff_of_nodup]
    · intro c
      simp only [List.mem_append, mem_inFirst, mem_inNone, mem_onlyIn]
      tauto
    · refine nodup_app nC (nodup_app (inNone_nodup _ _ _) (inNone_nodup _ _ _) ?_) ?_
      · intro a; rw [mem_inNone, mem_inNone]; tauto
      · intro a; have := hV a; simp only [List.mem_append, mem_inFirst, mem_inNone]; tauto
    · refine nodup_app (onlyIn_nodup _ _) nV ?_
      intro a ha hv
      exact (mem_onlyIn.1 ha).2 (hV a hv).2.1
  refine ⟨m', ?_, ?_, ?_⟩
  · have hck := check_ok hx hy hr hs hf
    have bp := back0_params (form2 xs ys rs) x r y hck _ (by
      rw [a1, a2, a3, a4, a5, a6, a7, a9]
      simp only [List.map_map, Function.comp_def]
      exact gp)
    unfold addEinsum2Back0
    rw [bp, Res.ok_bind, a7]
    have hpos : 0 < V.length := List.length_pos_iff.2 hc
    simp only [List.length_map]
    rw [if_pos hpos]
    convert h1 using 2
    have et : tstr [] rs r.strides = fun c => comb c rs r.strides := by
      funext c
      simp [tstr]
    simp only [lparams, P2.setLim, et]
    rfl
  · intro ρ hρ
    rw [hxd, hin] at hρ
    rw [h2 ρ hρ, ← sumOver_perm len _ perm ?_ ρ, sumOver_append len _ (V ++ _)]
    · congr 2
      apply sumOver_congr
      intro κ _ _
      exact convo_gather rs ys V _ _
        (fun c hc => ⟨(mem_inNone.1 hc).2.2, fun hv => (mem_inNone.1 hc).2.1 (hV c hv).2.1⟩)
        (fun c hc => ⟨(mem_inNone.1 hc).2.1, fun hv => (mem_inNone.1 hc).2.2 (hV c hv).2.1⟩) len lr dr
        (fun c hc => if_neg fun hv => (mem_inNone.1 hc).2.1 (hV c hv).2.1) G Y ρ κ
    · refine perm.nodup_iff.2 (nodup_app (onlyIn_nodup _ _) nV ?_)
      intro a ha hv
      exact (mem_onlyIn.1 ha).2 (hV a hv).2.1
  · intro c hc
    refine h3 c fun ρ hρ => hc ρ ?_
    rw [hxd, hin]
    exact hρ


/-- Forward pass with convolution letters: every result element gains the sum over `j` of `x_(i+j) y_j`, provided r does
not exceed the extent `dim(x)-dim(y)+1` that `operator()` gives it (then every `i+j` stays inside x).
Missing: the fourth transfer letter, see C27. -/
theorem C29_forward_partial [NonUnitalNonAssocSemiring α] (xs ys rs : List Char) (hx : '_' ∉ xs) (hy : '_' ∉ ys)
    (hr : '_' ∉ rs) (hs : NoSpecial xs ys rs) (hf : Few xs ys rs) (h3 : (common rs (xs ++ ys)).length ≤ 3)
    (len dx dr : Char → Nat) (hcv : ∀ c ∈ convs xs ys rs, len c ≤ dx c ∧ dr c + len c ≤ dx c + 1)
    (r x y : View) (hrd : r.dims = rs.map fun c => if c ∈ convs xs ys rs then dr c else len c)
    (hxd : x.dims = xs.map fun c => if c ∈ convs xs ys rs then dx c else len c) (hyd : y.dims = ys.map len)
    (hrw : r.WF) (hxw : x.WF) (hyw : y.WF) (hdist : r.Distinct) (hax : r.Apart x) (hay : r.Apart y)
    (m : Buf α) (R X Y : List Nat → α)
    (hR : ∀ ix, InRange ix r.dims → r.val m ix = some (R ix))
    (hX : ∀ ix, InRange ix x.dims → x.val m ix = some (X ix))
    (hY : ∀ ix, InRange ix y.dims → y.val m ix = some (Y ix)) :
    ∃ m', addEinsum2 (form2 xs ys rs) r x y m = .ok m' ∧
      (∀ ρ, InRange (rs.map ρ) r.dims → r.val m' (rs.map ρ) = some (R (rs.map ρ) + sumOver len (fun σ =>
        X (xs.map fun c => if c ∈ convs xs ys rs then ρ c + σ c else σ c) * Y (ys.map σ))
        (onlyIn (xs ++ ys) rs ++ convs xs ys rs) ρ)) ∧
      ∀ c, (∀ ρ, InRange (rs.map ρ) r.dims → c ≠ r.cell (rs.map ρ)) → m' c = m c :=
  forward2 xs ys rs hx hy hr hs hf len dx dr hcv r x y hrd hxd hyd hrw hxw hyw hdist hax hay
    (fun c hc => by
      have := (List.getElem?_eq_some_iff.1 hc).1
      rw [transferLetters_length hs] at this
      omega) m R X Y hR hX hY

theorem convU : convs ['U'] ['U'] ['U'] = ['U'] := by decide

theorem noSpecialU : NoSpecial ['U'] ['U'] ['U'] := ⟨by decide, by decide⟩

theorem fewU : Few ['U'] ['U'] ['U'] := ⟨by decide, by decide, by decide, by decide, by decide⟩

/-- "U,U->U": the plain one-dimensional correlation. -/
theorem C29_forward_1d [NonUnitalNonAssocSemiring α] (a b c : Nat) (hab : b ≤ a) (hc : c + b ≤ a + 1) (r x y : View)
    (hrd : r.dims = [c]) (hxd : x.dims = [a]) (hyd : y.dims = [b]) (hrw : r.WF) (hxw : x.WF) (hyw : y.WF)
    (hdist : r.Distinct) (hax : r.Apart x) (hay : r.Apart y) (m : Buf α) (R X Y : Nat → α)
    (hR : ∀ i < c, r.val m [i] = some (R i)) (hX : ∀ i < a, x.val m [i] = some (X i))
    (hY : ∀ i < b, y.val m [i] = some (Y i)) :
    ∃ m', addEinsum2 (form2 ['U'] ['U'] ['U']) r x y m = .ok m' ∧
      ∀ i < c, r.val m' [i] = some (R i + ((List.range b).map fun j => X (i + j) * Y j).sum) := by
  have lift : ∀ (v : View) (n : Nat) (V : Nat → α), v.dims = [n] → (∀ i < n, v.val m [i] = some (V i)) →
      ∀ ix, InRange ix v.dims → v.val m ix = some ((fun ix => V (ix.getD 0 0)) ix) := by
    intro v n V hd h ix hix
    rw [hd] at hix
    obtain ⟨i, rfl⟩ : ∃ i, ix = [i] := List.length_eq_one_iff.1 hix.length
    exact h i (inRange1.1 hix)
  obtain ⟨m', h1, h2, -⟩ := C29_forward_partial ['U'] ['U'] ['U'] (by decide) (by decide) (by decide) noSpecialU fewU
    (by decide) (fun _ => b) (fun _ => a) (fun _ => c) (fun _ _ => ⟨hab, hc⟩) r x y (by simp [convU, hrd])
    (by simp [convU, hxd]) (by simp [hyd]) hrw hxw hyw hdist hax hay m _ _ _ (lift r c R hrd hR) (lift x a X hxd hX)
    (lift y b Y hyd hY)
  refine ⟨m', h1, fun i hi => ?_⟩
  have := h2 (fun _ => i) (by rw [hrd]; exact inRange1.2 hi)
  have eo : onlyIn ['U', 'U'] ['U'] = [] := by decide
  simpa [convU, eo, sumOver, upd] using this

/-- "U,U->U": the gradient of the one-dimensional correlation with respect to its first operand. -/
theorem C29_back0_1d [NonUnitalNonAssocSemiring α] (a b c : Nat) (hbc : b ≤ c) (hc : c + b = a + 1) (r x y : View)
    (hrd : r.dims = [c]) (hxd : x.dims = [a]) (hyd : y.dims = [b]) (hrw : r.WF) (hxw : x.WF) (hyw : y.WF)
    (hdist : x.Distinct) (hax : x.Apart r) (hay : x.Apart y) (m : Buf α) (G X Y : Nat → α)
    (hG : ∀ i < c, r.val m [i] = some (G i)) (hX : ∀ i < a, x.val m [i] = some (X i))
    (hY : ∀ i < b, y.val m [i] = some (Y i)) :
    ∃ m', addEinsum2Back0 (form2 ['U'] ['U'] ['U']) x r y m = .ok m' ∧
      ∀ i < a, x.val m' [i] =
        some (X i + ((List.range b).map fun j => if j ≤ i ∧ i - j < c then G (i - j) * Y j else 0).sum) := by
  have lift : ∀ (v : View) (n : Nat) (V : Nat → α), v.dims = [n] → (∀ i < n, v.val m [i] = some (V i)) →
      ∀ ix, InRange ix v.dims → v.val m ix = some ((fun ix => V (ix.getD 0 0)) ix) := by
    intro v n V hd h ix hix
    rw [hd] at hix
    obtain ⟨i, rfl⟩ : ∃ i, ix = [i] := List.length_eq_one_iff.1 hix.length
    exact h i (inRange1.1 hix)
  obtain ⟨m', h1, h2, -⟩ := C29_back0_partial ['U'] ['U'] ['U'] (by decide) (by decide) (by decide) noSpecialU
    (by decide) fewU (by decide) (by decide) (fun _ => b) (fun _ => a) (fun _ => c) (fun _ _ => ⟨hbc, hc⟩) r x y
    (by simp [convU, hrd]) (by simp [convU, hxd]) (by simp [hyd]) hrw hxw hyw hdist hax hay m _ _ _ (lift r c G hrd hG)
    (lift x a X hxd hX) (lift y b Y hyd hY)
  refine ⟨m', h1, fun i hi => ?_⟩
  have := h2 (fun _ => i) (by rw [hxd]; exact inRange1.2 hi)
  have eo : onlyIn ['U', 'U'] ['U'] = [] := by decide
  simpa [convU, eo, sumOver, upd] using this

/-- "U,U->U": the gradient with respect to the second operand. -/
theorem C29_back1_1d [NonUnitalNonAssocSemiring α] (a b c : Nat) (hca : c ≤ a) (hc : c + b ≤ a + 1) (r x y : View)
    (hrd : r.dims = [c]) (hxd : x.dims = [a]) (hyd : y.dims = [b]) (hrw : r.WF) (hxw : x.WF) (hyw : y.WF)
    (hdist : y.Distinct) (hay : y.Apart r) (hax : y.Apart x) (m : Buf α) (G X Y : Nat → α)
    (hG : ∀ i < c, r.val m [i] = some (G i)) (hX : ∀ i < a, x.val m [i] = some (X i))
    (hY : ∀ i < b, y.val m [i] = some (Y i)) :
    ∃ m', addEinsum2Back1 (form2 ['U'] ['U'] ['U']) y r x m = .ok m' ∧
      ∀ j < b, y.val m' [j] = some (Y j + ((List.range c).map fun i => G i * X (j + i)).sum) := by
  have lift : ∀ (v : View) (n : Nat) (V : Nat → α), v.dims = [n] → (∀ i < n, v.val m [i] = some (V i)) →
      ∀ ix, InRange ix v.dims → v.val m ix = some ((fun ix => V (ix.getD 0 0)) ix) := by
    intro v n V hd h ix hix
    rw [hd] at hix
    obtain ⟨i, rfl⟩ : ∃ i, ix = [i] := List.length_eq_one_iff.1 hix.length
    exact h i (inRange1.1 hix)
  obtain ⟨m', h1, h2, -⟩ := C28_back1_conv_partial ['U'] ['U'] ['U'] (by decide) (by decide) (by decide) noSpecialU fewU
    (by decide) (by decide) (fun _ => b) (fun _ => a) (fun _ => c) (fun _ _ => ⟨hca, hc⟩) r x y (by simp [convU, hrd])
    (by simp [convU, hxd]) (by simp [hyd]) hrw hxw hyw hdist hay hax m _ _ _ (lift r c G hrd hG) (lift x a X hxd hX)
    (lift y b Y hyd hY)
  refine ⟨m', h1, fun i hi => ?_⟩
  have := h2 (fun _ => i) (by rw [hyd]; exact inRange1.2 hi)
  have eo : onlyIn ['U', 'U'] ['U'] = [] := by decide
  simpa [convU, eo, sumOver, upd] using this

/-- A signal of length 5, a kernel of length 2 and a result of length 4, then "Ui,Uj->Uij" with its hypotheses. -/
example : (⟨0, [4], [1]⟩ : View).Distinct ∧ (⟨0, [4], [1]⟩ : View).Apart ⟨4, [5], [1]⟩ ∧
    (⟨0, [4], [1]⟩ : View).Apart ⟨9, [2], [1]⟩ ∧ (⟨4, [5], [1]⟩ : View).Distinct ∧
    (⟨4, [5], [1]⟩ : View).Apart ⟨9, [2], [1]⟩ ∧ 4 + 2 = 5 + 1 ∧
    convs "Ui".toList "Uj".toList "Uij".toList = ['U'] ∧ NoSpecial "Ui".toList "Uj".toList "Uij".toList ∧
    Few "Ui".toList "Uj".toList "Uij".toList ∧ (common "Uij".toList ("Ui".toList ++ "Uj".toList)).length ≤ 3 ∧
    (common "Ui".toList ("Uij".toList ++ "Uj".toList)).length ≤ 3 ∧
    (inFirst "Uij".toList "Uj".toList "Ui".toList).length + (convs "Ui".toList "Uj".toList "Uij".toList).length ≤ 3 :=
  ⟨by decide, by decide, by decide, by decide, by decide, by decide, by decide, ⟨by decide, by decide⟩,
    ⟨by decide, by decide, by decide, by decide, by decide⟩, by decide, by decide, by decide⟩

/-- The extents are never checked: with a result longer than `dim(x)-dim(y)+1` the forward pass reads beyond x.  Here x has
two elements and the third result element picks up the 9 stored after it. -/
theorem C29_forward_unchecked_fails :
    ∃ (r x y : View) (m m' : Buf Int), r.dims = [3] ∧ x.dims = [2] ∧ y.dims = [1] ∧ r.WF ∧ x.WF ∧ y.WF ∧ r.Distinct ∧
      r.Apart x ∧ r.Apart y ∧ r.val m [2] = some 0 ∧ y.val m [0] = some 1 ∧ m 5 = some 9 ∧
      (∀ ix, InRange ix x.dims → x.cell ix ≠ 5) ∧
      addEinsum2 (form2 ['U'] ['U'] ['U']) r x y m = .ok m' ∧ r.val m' [2] = some 9 := by
  refine ⟨⟨0, [3], [1]⟩, ⟨3, [2], [1]⟩, ⟨6, [1], [1]⟩, Buf.ofList [0, 0, 0, 4, 5, 9, 1], _, rfl, rfl, rfl, by decide,
    by decide, by decide, by decide, by decide, by decide, by decide, by decide, by decide, ?_, rfl, by decide⟩
  have : ∀ ix ∈ allIndices [2], (⟨3, [2], [1]⟩ : View).cell ix ≠ 5 := by decide
  exact fun ix h => this ix (mem_allIndices.2 h)

/-- When the kernel is longer than the result the limited loop is cut off at `min(dim(r),dim(y))` and its lower limit is
computed from that: with `dim(x)=dim(y)=3`, `dim(r)=1` the gradient should be `r_0·(y_0,y_1,y_2) = (2,4,6)`; the code
computes `(2,·,·)` from r_0, then reads beyond r. -/
theorem C29_back0_long_kernel_fails :
    ∃ (r x y : View) (m m' : Buf Int), r.dims = [1] ∧ x.dims = [3] ∧ y.dims = [3] ∧ r.WF ∧ x.WF ∧ y.WF ∧ x.Distinct ∧
      x.Apart r ∧ x.Apart y ∧ r.val m [0] = some 2 ∧ (∀ i < 3, y.val m [i] = some ((i : Int) + 1)) ∧
      (∀ i < 3, x.val m [i] = some 0) ∧ m 4 = some 100 ∧ m 5 = some 1000 ∧
      addEinsum2Back0 (form2 ['U'] ['U'] ['U']) x r y m = .ok m' ∧
      x.val m' [0] = some 2 ∧ x.val m' [1] = some 100 ∧ x.val m' [2] = some 1000 := by
  refine ⟨⟨3, [1], [1]⟩, ⟨0, [3], [1]⟩, ⟨6, [3], [1]⟩, Buf.ofList [0, 0, 0, 2, 100, 1000, 1, 2, 3], _, rfl, rfl, rfl,
    by decide, by decide, by decide, by decide, by decide, by decide, by decide, by decide, by decide, by decide,
    by decide, rfl, by decide, by decide, by decide⟩

end Einsum
end Cnine
