import Verif.Spec.Scalar
import Verif.Lemmas.RtensorA

/-!
# Scalars: lemmas
-/

namespace Cnine

variable {β γ δ ε : Type}

namespace Scal

theorem Holds.rdVal {x : Scal β} {f : Nat → β} (h : x.Holds none f) : x.rdVal = .ok (f 0) := by
  rw [Scal.rdVal, h.2]

theorem Holds.rdArr {x : Scal β} {f : Nat → β} {k : Nat} (h : x.Holds (some k) f) {i : Nat} (hi : i < k) : x.rdArr i = .ok (f i) := by
  obtain ⟨_, l, h1, h2, h3⟩ := h
  rw [Scal.rdArr, h1]
  simp only [h3 i hi]

theorem Holds.congr {x : Scal β} {f g : Nat → β} {n : Option Nat} (h : x.Holds n f) (e : ∀ i, i < n.getD 1 → f i = g i) : x.Holds n g := by
  cases n with
  | none => exact ⟨h.1, by rw [← e 0 Nat.one_pos]; exact h.2⟩
  | some k =>
    obtain ⟨h0, l, h1, h2, h3⟩ := h
    exact ⟨h0, l, h1, h2, fun i hi => by rw [h3 i hi, e i hi]⟩

/-- The numbers of two descriptions agree. -/
theorem Holds.unique {x : Scal β} {f g : Nat → β} {n : Option Nat} (h : x.Holds n f) (h' : x.Holds n g) : ∀ i, i < n.getD 1 → f i = g i := by
  cases n with
  | none =>
    intro i hi
    obtain rfl : i = 0 := Nat.lt_one_iff.1 hi
    have := h.2.symm.trans h'.2
    exact Option.some.inj this
  | some k =>
    intro i hi
    have := h.rdArr hi
    rw [h'.rdArr hi] at this
    exact (Res.ok.inj this).symm

/-- A loop that writes one cell after the other. -/
theorem write_loop {r : Scal β} {k : Nat} {l : List (Option β)} (hn : r.nbu = some k) (ha : r.arr = some l) (hl : l.length = k) {G : Nat → β}
    (step : Nat → Scal β → Res (Scal β)) (hs : ∀ i, i < k → ∀ r' : Scal β, ∀ l', r'.arr = some l' → l'.length = k → l'[i]? = l[i]? → step i r' = r'.wrArr i (G i)) :
    ∃ r', loop k r step = .ok r' ∧ r'.Holds (some k) G := by
  have main : ∀ j, j ≤ k → ∃ r' l', loop j r step = .ok r' ∧ r'.nbu = some k ∧ r'.arr = some l' ∧ l'.length = k ∧ (∀ i, i < j → l'[i]? = some (some (G i))) ∧
      ∀ i, j ≤ i → l'[i]? = l[i]? := by
    intro j
    induction j with
    | zero => exact fun _ => ⟨r, l, rfl, hn, ha, hl, fun i hi => by omega, fun _ _ => rfl⟩
    | succ j ih =>
      intro hj
      obtain ⟨r', l', h1, h2, h3, h4, h5, h6⟩ := ih (by omega)
      refine ⟨{ r' with arr := some (l'.set j (some (G j))) }, _, ?_, h2, rfl, by rw [List.length_set, h4], fun i hi => ?_, fun i hi => ?_⟩
      · rw [RA.loop_snoc, h1, Res.ok_bind, hs j (by omega) r' l' h3 h4 (h6 j (Nat.le_refl j)), wrArr, h3]
        simp only
        rw [if_pos (show j < l'.length by omega)]
      · by_cases e : i = j
        · subst e; rw [List.getElem?_set_self (by omega)]
        · rw [List.getElem?_set_ne (by omega), h5 i (by omega)]
      · rw [List.getElem?_set_ne (by omega), h6 i (by omega)]
  obtain ⟨r', l', h1, h2, h3, h4, h5, _⟩ := main k (Nat.le_refl k)
  exact ⟨r', h1, h2, l', h3, h4, h5⟩

theorem upd_ok {r : Scal β} {n : Option Nat} {F G : Nat → β} (h : r.Holds n F) (one : β → Res β) (each : Nat → β → Res β)
    (h1 : n = none → one (F 0) = .ok (G 0)) (h2 : ∀ k, n = some k → ∀ i, i < k → each i (F i) = .ok (G i)) : ∃ r', r.upd one each = .ok r' ∧ r'.Holds n G := by
  cases n with
  | none =>
    refine ⟨{ r with val := some (G 0) }, ?_, h.1, rfl⟩
    rw [upd, h.1]
    simp only
    rw [h.rdVal, Res.ok_bind, h1 rfl, Res.ok_bind]
  | some k =>
    obtain ⟨l, e1, e2, e3⟩ := h.2
    obtain ⟨r', k1, k2⟩ := write_loop h.1 e1 e2 (G := G) (fun i r => r.rdArr i >>= fun a => each i a >>= fun b => r.wrArr i b) (by
      intro i hi r' l' f1 f2 f3
      have : r'.rdArr i = .ok (F i) := by
        rw [Scal.rdArr, f1]
        simp only [f3, e3 i hi]
      rw [this, Res.ok_bind, h2 k rfl i hi, Res.ok_bind])
    refine ⟨r', ?_, k2⟩
    rw [upd, h.1]
    exact k1

theorem raw_put (d : Option β) (n : Option Nat) {G : Nat → β} (one : Res β) (each : Nat → Res β) (h1 : n = none → one = .ok (G 0))
    (h2 : ∀ k, n = some k → ∀ i, i < k → each i = .ok (G i)) : ∃ r', (raw d n).put one each = .ok r' ∧ r'.Holds n G := by
  cases n with
  | none =>
    refine ⟨{ raw d none with val := some (G 0) }, ?_, rfl, rfl⟩
    show (one >>= fun b => Res.ok { raw d none with val := some b }) = _
    rw [h1 rfl, Res.ok_bind]
  | some k =>
    obtain ⟨r', k1, k2⟩ := write_loop (r := raw d (some k)) rfl rfl (by simp) (G := G) (fun i r => each i >>= fun b => r.wrArr i b)
      (by intro i hi r' l' f1 f2 f3; rw [h2 k rfl i hi, Res.ok_bind])
    exact ⟨r', k1, k2⟩

theorem put_ok {r : Scal β} {n : Option Nat} {F G : Nat → β} (h : r.Holds n F) (one : Res β) (each : Nat → Res β) (h1 : n = none → one = .ok (G 0))
    (h2 : ∀ k, n = some k → ∀ i, i < k → each i = .ok (G i)) : ∃ r', r.put one each = .ok r' ∧ r'.Holds n G := by
  cases n with
  | none =>
    refine ⟨{ r with val := some (G 0) }, ?_, h.1, rfl⟩
    rw [put, h.1]
    simp only
    rw [h1 rfl, Res.ok_bind]
  | some k =>
    obtain ⟨l, e1, e2, e3⟩ := h.2
    obtain ⟨r', k1, k2⟩ := write_loop h.1 e1 e2 (G := G) (fun i r => each i >>= fun b => r.wrArr i b)
      (by intro i hi r' l' f1 f2 f3; rw [h2 k rfl i hi, Res.ok_bind])
    refine ⟨r', ?_, k2⟩
    rw [put, h.1]
    exact k1

theorem map_ok (d : Option γ) (fn : β → γ) {x : Scal β} {n : Option Nat} {F : Nat → β} (h : x.Holds n F) : ∃ y, x.map d fn = .ok y ∧ y.Holds n fun i => fn (F i) := by
  rw [map, h.1]
  exact raw_put d n _ _ (fun e => by subst e; rw [h.rdVal, Res.ok_bind]) (fun k e i hi => by subst e; rw [h.rdArr hi, Res.ok_bind])

theorem zip_ok (f : β → γ → β) {r : Scal β} {x : Scal γ} {n : Option Nat} {F : Nat → β} {G : Nat → γ} (hr : r.Holds n F) (hx : x.Holds n G) :
    ∃ r', r.zip f x = .ok r' ∧ r'.Holds n fun i => f (F i) (G i) :=
  upd_ok hr _ _ (fun e => by subst e; rw [hx.rdVal, Res.ok_bind]) (fun k e i hi => by subst e; rw [hx.rdArr hi, Res.ok_bind])

theorem zip2_ok (f : β → γ → δ → β) {r : Scal β} {x : Scal γ} {y : Scal δ} {n : Option Nat} {F : Nat → β} {G : Nat → γ} {H : Nat → δ} (hr : r.Holds n F) (hx : x.Holds n G)
    (hy : y.Holds n H) : ∃ r', r.zip2 f x y = .ok r' ∧ r'.Holds n fun i => f (F i) (G i) (H i) :=
  upd_ok hr _ _ (fun e => by subst e; rw [hx.rdVal, Res.ok_bind, hy.rdVal, Res.ok_bind]) (fun k e i hi => by subst e; rw [hx.rdArr hi, Res.ok_bind, hy.rdArr hi, Res.ok_bind])

theorem czip_ok (f : β → γ → β) {r : Scal β} {x : Scal γ} {n : Option Nat} {F : Nat → β} {G : Nat → γ} (hr : r.Holds n F) (hx : x.Holds n G) :
    ∃ r', r.czip f x = .ok r' ∧ r'.Holds n fun i => f (F i) (G i) := by
  rw [czip, decide_eq_true (hr.1.trans hx.1.symm), Res.assrt_true, Res.ok_bind]
  exact zip_ok f hr hx

theorem czip2_ok (f : β → γ → δ → β) {r : Scal β} {x : Scal γ} {y : Scal δ} {n : Option Nat} {F : Nat → β} {G : Nat → γ} {H : Nat → δ} (hr : r.Holds n F) (hx : x.Holds n G)
    (hy : y.Holds n H) : ∃ r', r.czip2 f x y = .ok r' ∧ r'.Holds n fun i => f (F i) (G i) (H i) := by
  rw [czip2, decide_eq_true (hr.1.trans hx.1.symm), decide_eq_true (hr.1.trans hy.1.symm), Res.assrt_true, Res.ok_bind, Res.ok_bind]
  exact zip2_ok f hr hx hy

theorem czip_throws (f : β → γ → β) {r : Scal β} {x : Scal γ} (h : r.nbu ≠ x.nbu) : r.czip f x = .throw := by
  rw [czip, decide_eq_false h]; rfl

theorem czip2_throws (f : β → γ → δ → β) {r : Scal β} {x : Scal γ} {y : Scal δ} (h : r.nbu ≠ x.nbu ∨ r.nbu ≠ y.nbu) : r.czip2 f x y = .throw := by
  by_cases e : r.nbu = x.nbu
  · rw [czip2, decide_eq_true e, Res.assrt_true, Res.ok_bind, decide_eq_false (h.resolve_left fun k => k e)]; rfl
  · rw [czip2, decide_eq_false e]; rfl

end Scal

end Cnine
