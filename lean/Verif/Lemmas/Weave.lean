import Verif.Model.RView
import Verif.Lemmas.RtensorA

/-!
# Loops that work on two arrays at once

A loop that in each step does something to one array and then something to another has the effect of the two loops one after the other.
-/

namespace Cnine

variable {α : Type}

open Classical in
/-- `b` on the cells of `Q`, `m` elsewhere. -/
noncomputable def overlay (Q : Nat → Prop) (b m : Buf α) : Buf α := fun c => if Q c then b c else m c

/-- The program changes only cells of `P`, and neither reads nor writes cells of `Q`. -/
structure Works (P Q : Nat → Prop) (s : Buf α → Res (Buf α)) : Prop where
  only : ∀ m m', s m = .ok m' → ∀ c, ¬ P c → m' c = m c
  ign : ∀ m m' b, s m = .ok m' → s (overlay Q b m) = .ok (overlay Q b m')

/-- The computation does not read cells of `Q`. -/
def Blind {β : Type} (Q : Nat → Prop) (f : Buf α → Res β) : Prop := ∀ m v b, f m = .ok v → f (overlay Q b m) = .ok v

theorem overlay_in {Q : Nat → Prop} {b m : Buf α} {c : Nat} (h : Q c) : overlay Q b m c = b c := if_pos h

theorem overlay_out {Q : Nat → Prop} {b m : Buf α} {c : Nat} (h : ¬ Q c) : overlay Q b m c = m c := if_neg h

theorem Works.bind {P Q : Nat → Prop} {s t : Buf α → Res (Buf α)} (hs : Works P Q s) (ht : Works P Q t) : Works P Q fun m => s m >>= t := by
  refine ⟨fun m m' h c hc => ?_, fun m m' b h => ?_⟩
  · obtain ⟨m1, h1, h2⟩ := Res.bind_eq_ok.1 h
    rw [ht.only _ _ h2 c hc, hs.only _ _ h1 c hc]
  · obtain ⟨m1, h1, h2⟩ := Res.bind_eq_ok.1 h
    simp only [hs.ign _ _ b h1, Res.ok_bind, ht.ign _ _ b h2]

theorem Works.forM {ι : Type} {P Q : Nat → Prop} (l : List ι) {s : ι → Buf α → Res (Buf α)} (hs : ∀ i ∈ l, Works P Q (s i)) :
    Works P Q fun m => Res.forM l m fun m i => s i m := by
  induction l with
  | nil =>
    refine ⟨fun m m' h c _ => ?_, fun m m' b h => ?_⟩
    · cases h; rfl
    · cases h; rfl
  | cons i l ih => exact (hs i List.mem_cons_self).bind (ih fun j hj => hs j (List.mem_cons_of_mem _ hj))

theorem Works.loop {P Q : Nat → Prop} (n : Nat) {s : Nat → Buf α → Res (Buf α)} (hs : ∀ i, i < n → Works P Q (s i)) : Works P Q fun m => loop n m s :=
  Works.forM _ fun i hi => hs i (List.mem_range.1 hi)

theorem Blind.read {Q : Nat → Prop} {c : Nat} (h : ¬ Q c) : Blind Q fun m : Buf α => m.read c := by
  intro m v b e
  simp only [Buf.read, overlay_out h]
  exact e

theorem Blind.ok {β : Type} {Q : Nat → Prop} (v : β) : Blind Q fun _ : Buf α => .ok v := fun _ _ _ e => e

theorem Blind.bind {β γ : Type} {Q : Nat → Prop} {f : Buf α → Res β} {g : β → Buf α → Res γ} (hf : Blind Q f) (hg : ∀ v, Blind Q (g v)) : Blind Q fun m => f m >>= fun v => g v m := by
  intro m v b e
  obtain ⟨w, h1, h2⟩ := Res.bind_eq_ok.1 e
  simp only [hf m w b h1, Res.ok_bind]
  exact hg w m v b h2

theorem Blind.loop {β : Type} {Q : Nat → Prop} (n : Nat) {s : Nat → β → Buf α → Res β} (h : ∀ i, i < n → ∀ v, Blind Q (s i v)) (v0 : β) :
    Blind Q fun m : Buf α => loop n v0 fun i v => s i v m := by
  show Blind Q fun m : Buf α => Res.forM (List.range n) v0 fun v i => s i v m
  have h' : ∀ i ∈ List.range n, ∀ v, Blind Q (s i v) := fun i hi => h i (List.mem_range.1 hi)
  generalize List.range n = l at h'
  induction l generalizing v0 with
  | nil => exact Blind.ok v0
  | cons i l ih =>
    show Blind Q fun m : Buf α => s i v0 m >>= fun v => Res.forM l v fun v i => s i v m
    exact (h' i List.mem_cons_self v0).bind fun v => ih v fun j hj => h' j (List.mem_cons_of_mem _ hj)

theorem Works.write {P Q : Nat → Prop} {a : Nat} (hP : P a) (hQ : ¬ Q a) (v : α) : Works P Q fun m => m.write a v := by
  refine ⟨fun m m' h c hc => ?_, fun m m' b h => ?_⟩
  · simp only [Buf.write] at h
    cases e : m a with
    | none => rw [e] at h; cases h
    | some w => rw [e] at h; cases h; exact if_neg (fun e : c = a => hc (e.symm ▸ hP))
  · simp only [Buf.write, overlay_out hQ] at h ⊢
    cases e : m a with
    | none => rw [e] at h; cases h
    | some w =>
      rw [e] at h; cases h
      simp only [Res.ok.injEq]
      funext c
      by_cases hc : Q c
      · rw [if_neg (fun e : c = a => hQ (e ▸ hc)), overlay_in hc, overlay_in hc]
      · rw [overlay_out hc, overlay_out hc]

/-- A step that computes a number and stores it. -/
theorem Works.put {β : Type} {P Q : Nat → Prop} {f : Buf α → Res β} (hf : Blind Q f) {s : β → Buf α → Res (Buf α)} (hs : ∀ v, Works P Q (s v)) :
    Works P Q fun m => f m >>= fun v => s v m := by
  refine ⟨fun m m' h c hc => ?_, fun m m' b h => ?_⟩
  · obtain ⟨v, _, h2⟩ := Res.bind_eq_ok.1 h
    exact (hs v).only _ _ h2 c hc
  · obtain ⟨v, h1, h2⟩ := Res.bind_eq_ok.1 h
    simp only [hf m v b h1, Res.ok_bind, (hs v).ign _ _ b h2]

theorem Works.upd {P Q : Nat → Prop} (op : α → α → α) {a c : Nat} (hP : P a) (hQ : ¬ Q a) (hc : ¬ Q c) : Works P Q fun m => updCell op m a c :=
  .put (Blind.read hQ) fun _ => .put (Blind.read hc) fun _ => .write hP hQ _

theorem Works.copy {P Q : Nat → Prop} {a c : Nat} (hP : P a) (hQ : ¬ Q a) (hc : ¬ Q c) : Works P Q fun m : Buf α => copyCell m a c :=
  .put (Blind.read hc) fun _ => .write hP hQ _

theorem Works.inc [Add α] {P Q : Nat → Prop} {a : Nat} (hP : P a) (hQ : ¬ Q a) (v : α) : Works P Q fun m : Buf α => incCell m a v :=
  .put (Blind.read hQ) fun _ => .write hP hQ _

/-- Two programs on different arrays can change places. -/
theorem Works.swap {P Q : Nat → Prop} (hd : ∀ c, P c → ¬ Q c) {A B : Buf α → Res (Buf α)} (hA : Works P Q A) (hB : Works Q P B) {m1 m2 m3 : Buf α}
    (h1 : A m1 = .ok m2) (h2 : B m2 = .ok m3) : ∃ m', B m1 = .ok m' ∧ A m' = .ok m3 := by
  have e1 : overlay P m1 m2 = m1 := by
    funext c
    by_cases h : P c
    · exact overlay_in h
    · rw [overlay_out h, hA.only _ _ h1 c h]
  have e2 : overlay P m1 m3 = overlay Q m3 m1 := by
    funext c
    by_cases h : P c
    · rw [overlay_in h, overlay_out (hd c h)]
    · rw [overlay_out h]
      by_cases hq : Q c
      · rw [overlay_in hq]
      · rw [overlay_out hq, hB.only _ _ h2 c hq, hA.only _ _ h1 c h]
  have e3 : overlay Q m3 m2 = m3 := by
    funext c
    by_cases h : Q c
    · exact overlay_in h
    · rw [overlay_out h, hB.only _ _ h2 c h]
  refine ⟨overlay P m1 m3, ?_, ?_⟩
  · have := hB.ign _ _ m1 h2
    rwa [e1] at this
  · have := hA.ign _ _ m3 h1
    rwa [e3, ← e2] at this

theorem weave_forM {ι : Type} {P Q : Nat → Prop} (hd : ∀ c, P c → ¬ Q c) (l : List ι) {A B : ι → Buf α → Res (Buf α)} (hA : ∀ i ∈ l, Works P Q (A i))
    (hB : ∀ i ∈ l, Works Q P (B i)) {m m1 m2 : Buf α} (h1 : Res.forM l m (fun m i => A i m) = .ok m1) (h2 : Res.forM l m1 (fun m i => B i m) = .ok m2) :
    Res.forM l m (fun m i => A i m >>= B i) = .ok m2 := by
  induction l generalizing m m1 m2 with
  | nil => cases h1; cases h2; rfl
  | cons i l ih =>
    rw [Res.forM_cons] at h1 h2 ⊢
    obtain ⟨n1, a1, a2⟩ := Res.bind_eq_ok.1 h1
    obtain ⟨n2, b1, b2⟩ := Res.bind_eq_ok.1 h2
    obtain ⟨n3, c1, c2⟩ := (Works.forM l fun j hj => hA j (List.mem_cons_of_mem _ hj)).swap hd (hB i List.mem_cons_self) a2 b1
    rw [a1, Res.ok_bind, c1, Res.ok_bind]
    exact ih (fun j hj => hA j (List.mem_cons_of_mem _ hj)) (fun j hj => hB j (List.mem_cons_of_mem _ hj)) c2 b2

/-- A loop of steps on two arrays. -/
theorem weave {P Q : Nat → Prop} (hd : ∀ c, P c → ¬ Q c) (n : Nat) {A B : Nat → Buf α → Res (Buf α)} (hA : ∀ i, i < n → Works P Q (A i))
    (hB : ∀ i, i < n → Works Q P (B i)) {m m1 m2 : Buf α} (h1 : loop n m A = .ok m1) (h2 : loop n m1 B = .ok m2) :
    loop n m (fun i m => A i m >>= B i) = .ok m2 :=
  weave_forM hd _ (fun i hi => hA i (List.mem_range.1 hi)) (fun i hi => hB i (List.mem_range.1 hi)) h1 h2

/-- Steps may be replaced by steps that do the same whenever the first end well. -/
theorem loop_mono (n : Nat) {f g : Nat → Buf α → Res (Buf α)} (h : ∀ i, i < n → ∀ m m', g i m = .ok m' → f i m = .ok m') {m m' : Buf α} (hg : loop n m g = .ok m') :
    loop n m f = .ok m' := by
  have h' : ∀ i ∈ List.range n, ∀ m m', g i m = .ok m' → f i m = .ok m' := fun i hi => h i (List.mem_range.1 hi)
  unfold loop at hg ⊢
  generalize List.range n = l at h' hg
  induction l generalizing m with
  | nil => exact hg
  | cons i l ih =>
    rw [Res.forM_cons] at hg ⊢
    obtain ⟨m1, h1, h2⟩ := Res.bind_eq_ok.1 hg
    rw [h' i List.mem_cons_self _ _ h1, Res.ok_bind]
    exact ih (fun j hj => h' j (List.mem_cons_of_mem _ hj)) h2

theorem weave2 {P Q : Nat → Prop} (hd : ∀ c, P c → ¬ Q c) (n k : Nat) {A B : Nat → Nat → Buf α → Res (Buf α)} (hA : ∀ i, i < n → ∀ j, j < k → Works P Q (A i j))
    (hB : ∀ i, i < n → ∀ j, j < k → Works Q P (B i j)) {m m1 m2 : Buf α} (h1 : (loop n m fun i m => loop k m (A i)) = .ok m1)
    (h2 : (loop n m1 fun i m => loop k m (B i)) = .ok m2) :
    (loop n m fun i m => loop k m fun j m => A i j m >>= B i j) = .ok m2 := by
  have := weave hd n (A := fun i m => loop k m (A i)) (B := fun i m => loop k m (B i)) (fun i hi => .loop k (hA i hi)) (fun i hi => .loop k (hB i hi)) h1 h2
  refine loop_mono n (fun i hi m m' h => ?_) this
  obtain ⟨n1, a1, a2⟩ := Res.bind_eq_ok.1 h
  exact weave hd k (hA i hi) (hB i hi) a1 a2

theorem weave3 {P Q : Nat → Prop} (hd : ∀ c, P c → ¬ Q c) (n k l : Nat) {A B : Nat → Nat → Nat → Buf α → Res (Buf α)}
    (hA : ∀ i, i < n → ∀ j, j < k → ∀ p, p < l → Works P Q (A i j p)) (hB : ∀ i, i < n → ∀ j, j < k → ∀ p, p < l → Works Q P (B i j p)) {m m1 m2 : Buf α}
    (h1 : (loop n m fun i m => loop k m fun j m => loop l m (A i j)) = .ok m1) (h2 : (loop n m1 fun i m => loop k m fun j m => loop l m (B i j)) = .ok m2) :
    (loop n m fun i m => loop k m fun j m => loop l m fun p m => A i j p m >>= B i j p) = .ok m2 := by
  have := weave2 hd n k (A := fun i j m => loop l m (A i j)) (B := fun i j m => loop l m (B i j)) (fun i hi j hj => .loop l (hA i hi j hj))
    (fun i hi j hj => .loop l (hB i hi j hj)) h1 h2
  refine loop_mono n (fun i hi m m' h => loop_mono k (fun j hj m m' h => ?_) h) this
  obtain ⟨n1, a1, a2⟩ := Res.bind_eq_ok.1 h
  exact weave hd l (hA i hi j hj) (hB i hi j hj) a1 a2

end Cnine
