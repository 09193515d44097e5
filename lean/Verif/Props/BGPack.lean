import Verif.Spec.BGPack
import Mathlib.Algebra.Group.Basic
import Mathlib.Algebra.BigOperators.Group.List.Basic
import Mathlib.Data.List.Nodup
import Mathlib.Order.Nat

/-!
# Packs of tensors and gradients

C396-C402.
-/

namespace Cnine

variable {K I α : Type}

open BGPack

theorem deref_ok {m : List (I × α)} {a : Nat} (h : a < m.length) : deref m (some a) = .ok m[a] := by
  simp [deref, List.getElem?_eq_getElem h]

theorem find_mem [DecidableEq K] {l : List (K × Option Nat)} (hk : (l.map Prod.fst).Nodup) {k : K} {a : Option Nat} (h : (k, a) ∈ l) : find k l = some a := by
  induction l with
  | nil => cases h
  | cons q l ih =>
    obtain ⟨k', v⟩ := q
    rw [find]
    simp only [List.map_cons, List.nodup_cons] at hk
    rcases List.mem_cons.1 h with h1 | h1
    · cases h1; rw [if_pos rfl]
    · rw [if_neg, ih hk.2 h1]
      rintro rfl
      exact hk.1 (List.mem_map.2 ⟨_, h1, rfl⟩)

theorem find_none [DecidableEq K] {l : List (K × Option Nat)} {k : K} (h : k ∉ l.map Prod.fst) : find k l = none := by
  induction l with
  | nil => rfl
  | cons q l ih =>
    obtain ⟨k', v⟩ := q
    simp only [List.map_cons, List.mem_cons, not_or] at h
    rw [find, if_neg h.1, ih h.2]

/-! ### C396: deep copies -/

theorem copy_core (l : List (K × Option Nat)) (m : List (I × α)) (acc : List (K × Option Nat)) (h : ∀ q ∈ l, ∃ a, q.2 = some a ∧ a < m.length) :
    ∃ n : List (I × α), Res.forM l (m, acc) (fun (x : List (I × α) × List (K × Option Nat)) (q : K × Option Nat) => do
        let v ← deref x.1 q.2
        .ok (x.1 ++ [v], x.2 ++ [(q.1, some x.1.length)])) = .ok (m ++ n, acc ++ l.zipIdx.map fun q => (q.1.1, some (m.length + q.2))) ∧
      n.length = l.length ∧ ∀ j, ∀ hj : j < l.length, ∃ a, l[j].2 = some a ∧ n[j]? = m[a]? := by
  induction l generalizing m acc with
  | nil => exact ⟨[], by simp [Res.forM_nil], rfl, fun j hj => absurd hj (by simp)⟩
  | cons q l ih =>
    obtain ⟨a, ha, hl⟩ := h q (by simp)
    obtain ⟨n, e, hn, hv⟩ := ih (m ++ [m[a]]) (acc ++ [(q.1, some m.length)]) fun q hq => by
      obtain ⟨b, h1, h2⟩ := h q (List.mem_cons_of_mem _ hq)
      exact ⟨b, h1, by simp; omega⟩
    refine ⟨m[a] :: n, ?_, by simp [hn], fun j hj => ?_⟩
    · rw [Res.forM_cons]
      simp only [ha]
      rw [deref_ok hl, Res.ok_bind, Res.ok_bind, e]
      simp only [List.append_assoc, List.singleton_append, List.zipIdx_cons, List.map_cons, Res.ok.injEq, Prod.mk.injEq, true_and, Nat.add_zero, List.cons.injEq, List.append_cancel_left_eq]
      rw [List.zipIdx_succ]
      simp only [List.map_map, List.length_append, List.length_singleton]
      refine List.map_congr_left fun q _ => ?_
      simp only [Function.comp]
      congr 2
      omega
    · cases j with
      | zero => exact ⟨a, ha, by simp [hl]⟩
      | succ j =>
        obtain ⟨b, h1, h2⟩ := hv j (by simpa using hj)
        refine ⟨b, h1, ?_⟩
        obtain ⟨b', h3, h4⟩ := h (l[j]'(by simpa using hj)) (List.mem_cons_of_mem _ (List.getElem_mem _))
        have : b = b' := by rw [h1] at h3; exact Option.some.inj h3
        subst this
        rw [List.getElem?_cons_succ, h2, List.getElem?_append_left h4]

/-- `copy()` makes a pack with the same sizes, keys and contents, in arrays of its own; nothing else changes. -/
theorem C396_copy (m : List (I × α)) (x : Pack K I) (h : Ok m x) :
    ∃ n r, BGPack.copy m x = .ok (m ++ n, r) ∧ r.vars = x.vars ∧ r.parts.map Prod.fst = x.parts.map Prod.fst ∧ Ok (m ++ n) r ∧ (∀ a, Uses r a → m.length ≤ a) ∧
      (r.parts.map Prod.snd).Nodup ∧ ∀ k v, Holds (m ++ n) r k v ↔ Holds m x k v := by
  obtain ⟨n, e, hn, hv⟩ := copy_core x.parts m [] h.arrays
  have hkeys : (x.parts.zipIdx.map fun q => (q.1.1, some (m.length + q.2))).map Prod.fst = x.parts.map Prod.fst := by
    rw [List.map_map]
    change x.parts.zipIdx.map (Prod.fst ∘ Prod.fst) = _
    rw [← List.map_map, List.zipIdx_map_fst]
  have hmem : ∀ k a, (k, some a) ∈ (x.parts.zipIdx.map fun q => (q.1.1, some (m.length + q.2))) ↔ ∃ j, ∃ hj : j < x.parts.length, x.parts[j].1 = k ∧ a = m.length + j := by
    intro k a
    simp only [List.mem_map, Prod.mk.injEq, Option.some.injEq]
    constructor
    · rintro ⟨⟨q, j⟩, h1, h2, h3⟩
      obtain ⟨h4, h5⟩ := List.mem_zipIdx_iff_getElem?.1 h1 |> List.getElem?_eq_some_iff.1
      exact ⟨j, h4, by rw [h5]; exact h2, h3.symm⟩
    · rintro ⟨j, hj, h1, h2⟩
      exact ⟨(x.parts[j], j), List.mem_zipIdx_iff_getElem?.2 (by simp [hj]), h1, h2.symm⟩
  refine ⟨n, ⟨x.vars, x.parts.zipIdx.map fun q => (q.1.1, some (m.length + q.2))⟩, ?_, rfl, hkeys, ⟨by rw [hkeys]; exact h.keys, fun q hq => ?_⟩, fun a ⟨k, ha⟩ => ?_, ?_, fun k v => ?_⟩
  · rw [BGPack.copy]
    have := e
    rw [List.nil_append] at this
    rw [this, Res.ok_bind]
  · obtain ⟨⟨q', j⟩, h1, h2⟩ := List.mem_map.1 hq
    obtain ⟨h4, _⟩ := List.mem_zipIdx_iff_getElem?.1 h1 |> List.getElem?_eq_some_iff.1
    exact ⟨m.length + j, by rw [← h2], by simp only [List.length_append]; omega⟩
  · obtain ⟨j, _, _, h2⟩ := (hmem k a).1 ha
    omega
  · rw [List.map_map]
    change (x.parts.zipIdx.map ((fun j => some (m.length + j)) ∘ Prod.snd)).Nodup
    rw [← List.map_map, List.zipIdx_map_snd]
    exact (List.nodup_range' ..).map fun a b e => by simpa using e
  · constructor
    · rintro ⟨a, i, h1, h2⟩
      obtain ⟨j, hj, h3, h4⟩ := (hmem k a).1 h1
      obtain ⟨b, h5, h6⟩ := hv j hj
      refine ⟨b, i, ?_, ?_⟩
      · rw [← h3, ← h5]; exact List.getElem_mem hj
      · rw [← h6, ← h2, h4, List.getElem?_append_right (by omega)]; congr 1; omega
    · rintro ⟨b, i, h1, h2⟩
      obtain ⟨j, hj, h3⟩ := List.getElem_of_mem h1
      obtain ⟨b', h5, h6⟩ := hv j hj
      rw [h3] at h5
      cases h5
      refine ⟨m.length + j, i, (hmem k _).2 ⟨j, hj, by rw [h3], rfl⟩, ?_⟩
      rw [List.getElem?_append_right (by omega), show m.length + j - m.length = j by omega, h6, h2]

example : ∃ n r, BGPack.copy [((), (5 : Int)), ((), 7)] (⟨(), [(1, some 1), (4, some 0)]⟩ : Pack Nat Unit) = .ok ([((), 5), ((), 7)] ++ n, r) ∧ r.parts = [(1, some 2), (4, some 3)] ∧
    n = [((), 7), ((), 5)] := ⟨_, _, rfl, rfl, rfl⟩

/-! ### C397: adding packs -/

theorem upd_ok (op : α → α → α) {m : List (I × α)} {a b : Nat} (ha : a < m.length) (hb : b < m.length) :
    upd op m (some a) (some b) = .ok (m.set a (m[a].1, op m[a].2 m[b].2)) := by
  rw [upd, deref_ok ha, Res.ok_bind, deref_ok hb, Res.ok_bind]
  rfl

theorem upd_all (op : α → α → α) (g : K → Option Nat) (l : List (K × Option Nat)) (m : List (I × α)) (ha : ∀ q ∈ l, ∃ a, q.2 = some a ∧ a < m.length)
    (hg : ∀ q ∈ l, ∃ b, g q.1 = some b ∧ b < m.length ∧ some b ∉ l.map Prod.snd) (hn : (l.map Prod.snd).Nodup) :
    ∃ m', Res.forM l m (fun m (q : K × Option Nat) => upd op m q.2 (g q.1)) = .ok m' ∧ m'.length = m.length ∧
      (∀ k a b i v j w, (k, some a) ∈ l → g k = some b → m[a]? = some (i, v) → m[b]? = some (j, w) → m'[a]? = some (i, op v w)) ∧
      ∀ c, some c ∉ l.map Prod.snd → m'[c]? = m[c]? := by
  induction l generalizing m with
  | nil => exact ⟨m, rfl, rfl, fun _ _ _ _ _ _ _ h => (List.not_mem_nil h).elim, fun _ _ => rfl⟩
  | cons q l ih =>
    obtain ⟨a, h1, h2⟩ := ha q (by simp)
    obtain ⟨b, h3, h4, h5⟩ := hg q (by simp)
    simp only [List.map_cons, List.nodup_cons] at hn
    obtain ⟨m', e, hlen, hv, hk⟩ := ih (m.set a (m[a].1, op m[a].2 m[b].2)) (fun q hq => by
        obtain ⟨c, h6, h7⟩ := ha q (List.mem_cons_of_mem _ hq)
        exact ⟨c, h6, by simpa using h7⟩) (fun q hq => by
        obtain ⟨c, h6, h7, h8⟩ := hg q (List.mem_cons_of_mem _ hq)
        simp only [List.map_cons, List.mem_cons, not_or] at h8
        exact ⟨c, h6, by simpa using h7, h8.2⟩) hn.2
    have hal : some a ∉ l.map Prod.snd := by rw [← h1]; exact hn.1
    refine ⟨m', ?_, by rw [hlen]; simp, fun k a' b' i v j w hmem hgk hma hmb => ?_, fun c hc => ?_⟩
    · rw [Res.forM_cons, h1, h3, upd_ok op h2 h4, Res.ok_bind, e]
    · rcases List.mem_cons.1 hmem with h6 | h6
      · rw [← h6] at h1 h3
        cases h1
        rw [hgk] at h3
        cases h3
        rw [hk a hal, List.getElem?_set_self h2]
        rw [List.getElem?_eq_getElem h2] at hma
        rw [List.getElem?_eq_getElem h4] at hmb
        rw [Option.some.inj hma, Option.some.inj hmb]
      · have hne : a ≠ a' := fun e => hal (List.mem_map.2 ⟨_, h6, by rw [e]⟩)
        obtain ⟨b'', h7, h8, h9⟩ := hg _ hmem
        rw [hgk] at h7
        cases h7
        have hne' : a ≠ b' := fun e => h9 (by rw [← e, List.map_cons, h1]; exact List.mem_cons_self ..)
        exact hv k a' b' i v j w h6 hgk (by rw [List.getElem?_set_ne hne]; exact hma) (by rw [List.getElem?_set_ne hne']; exact hmb)
    · simp only [List.map_cons, List.mem_cons, not_or] at hc
      rw [hk c hc.2, List.getElem?_set_ne]
      rintro rfl
      exact hc.1 h1.symm

theorem uses_mem {p : Pack K I} {a : Nat} : Uses p a ↔ some a ∈ p.parts.map Prod.snd := by
  constructor
  · rintro ⟨k, h⟩; exact List.mem_map.2 ⟨_, h, rfl⟩
  · intro h
    obtain ⟨⟨k, b⟩, h1, h2⟩ := List.mem_map.1 h
    exact ⟨k, by rw [← h2]; exact h1⟩

/-- Updating every part of `r` by the part of `x` under the same key. -/
theorem pair_all (op : α → α → α) [DecidableEq K] {m : List (I × α)} {r x : Pack K I} (hr : Ok m r) (hx : Ok m x) (hk : ∀ k ∈ r.parts.map Prod.fst, k ∈ x.parts.map Prod.fst)
    (hn : (r.parts.map Prod.snd).Nodup) (hd : ∀ a, Uses r a → ¬ Uses x a) :
    ∃ m', Res.forM r.parts m (fun m (q : K × Option Nat) => upd op m q.2 ((find q.1 x.parts).getD none)) = .ok m' ∧ m'.length = m.length ∧
      (∀ k v w, Holds m r k v → Holds m x k w → Holds m' r k (op v w)) ∧ ∀ c, ¬ Uses r c → m'[c]? = m[c]? := by
  have key : ∀ k b, (k, some b) ∈ x.parts → (find k x.parts).getD none = some b := fun k b h => by rw [find_mem hx.keys h]; rfl
  obtain ⟨m', e, h1, h2, h3⟩ := upd_all op (fun k => (find k x.parts).getD none) r.parts m hr.arrays (fun q hq => by
    obtain ⟨⟨k, b⟩, h1, h2⟩ := List.mem_map.1 (hk q.1 (List.mem_map.2 ⟨q, hq, rfl⟩))
    obtain ⟨b', h3, h4⟩ := hx.arrays _ h1
    simp only at h3 h2
    subst h3 h2
    exact ⟨b', key _ _ h1, h4, fun h => hd b' (uses_mem.2 h) ⟨_, h1⟩⟩) hn
  refine ⟨m', e, h1, fun k v w hv hw => ?_, fun c hc => h3 c fun h => hc (uses_mem.2 h)⟩
  obtain ⟨a, i, a1, a2⟩ := hv
  obtain ⟨b, j, b1, b2⟩ := hw
  exact ⟨a, i, a1, h2 k a b i v j w a1 (key k b b1) a2 b2⟩

theorem res_forM_congr {σ β : Type} (l : List β) (s : σ) (f g : σ → β → Res σ) (h : ∀ s, ∀ b ∈ l, f s b = g s b) : Res.forM l s f = Res.forM l s g := by
  induction l generalizing s with
  | nil => rfl
  | cons b l ih =>
    rw [Res.forM_cons, Res.forM_cons, h s b (by simp)]
    cases g s b with
    | ok t => rw [Res.ok_bind, Res.ok_bind]; exact ih t fun s c hc => h s c (List.mem_cons_of_mem _ hc)
    | throw => rfl
    | ub => rfl

theorem at_find [DecidableEq K] {p : Pack K I} {k : K} (h : k ∈ p.parts.map Prod.fst) : at' p k = .ok ((find k p.parts).getD none) := by
  have : ∀ l : List (K × Option Nat), k ∈ l.map Prod.fst → ∃ a, find k l = some a := fun l hl => by
    induction l with
    | nil => cases hl
    | cons q l ih =>
      obtain ⟨k', v⟩ := q
      rw [find]
      by_cases e : k = k'
      · exact ⟨v, if_pos e⟩
      · rw [if_neg e]
        exact ih (by simpa [e] using hl)
  obtain ⟨a, ha⟩ := this _ h
  rw [at', ha]; rfl

/-- `add(x)` for packs with the same keys and separate arrays: every part gets the part of `x` under the same key added, and no other array changes. -/
theorem C397_add [DecidableEq K] [Add α] (m : List (I × α)) (r x : Pack K I) (hr : Ok m r) (hx : Ok m x) (hk : r.parts.map Prod.fst = x.parts.map Prod.fst)
    (hn : (r.parts.map Prod.snd).Nodup) (hd : ∀ a, Uses r a → ¬ Uses x a) :
    ∃ m', BGPack.add m r x = .ok m' ∧ m'.length = m.length ∧ (∀ k v w, Holds m r k v → Holds m x k w → Holds m' r k (v + w)) ∧ ∀ c, ¬ Uses r c → m'[c]? = m[c]? := by
  obtain ⟨m', e, h⟩ := pair_all (· + ·) hr hx (fun k h => hk ▸ h) hn hd
  refine ⟨m', ?_, h⟩
  have hlen := congrArg List.length hk
  simp only [List.length_map] at hlen
  rw [BGPack.add, decide_eq_true hlen.symm, Res.assrt_true, Res.ok_bind, ← e]
  refine res_forM_congr _ _ _ _ fun m q hq => ?_
  dsimp only
  rw [at_find (by rw [← hk]; exact List.mem_map.2 ⟨q, hq, rfl⟩), Res.ok_bind]

/-- Packs of other sizes, or with other keys, are refused. -/
theorem C397_refused [DecidableEq K] [Add α] (m : List (I × α)) (r x : Pack K I) (hr : Ok m r) (hx : Ok m x)
    (h : x.parts.length ≠ r.parts.length ∨ ∃ k ∈ r.parts.map Prod.fst, k ∉ x.parts.map Prod.fst) : BGPack.add m r x = .throw := by
  rw [BGPack.add]
  by_cases hl : x.parts.length = r.parts.length
  swap
  · rw [decide_eq_false hl]; rfl
  rw [decide_eq_true hl, Res.assrt_true, Res.ok_bind]
  obtain ⟨k, h1, h2⟩ := h.resolve_left fun h => h hl
  have ha := hr.arrays
  have hm : ∀ q ∈ x.parts, ∃ a, q.2 = some a ∧ a < m.length := hx.arrays
  clear hr hl h
  generalize r.parts = l at *
  induction l generalizing m with
  | nil => cases h1
  | cons q l ih =>
    rw [Res.forM_cons]
    dsimp only
    by_cases hq : q.1 ∈ x.parts.map Prod.fst
    · obtain ⟨a, a1, a2⟩ := ha q (by simp)
      obtain ⟨⟨k', b'⟩, b1, b2⟩ := List.mem_map.1 hq
      obtain ⟨b, b3, b4⟩ := hm _ b1
      simp only at b2 b3
      subst b2 b3
      rw [at_find hq, Res.ok_bind, find_mem hx.keys b1, Option.getD_some, a1, upd_ok _ a2 b4, Res.ok_bind]
      refine ih _ ⟨hx.keys, fun q hq => ?_⟩ (fun q hq => ?_) ?_ fun q hq => ?_
      · obtain ⟨c, c1, c2⟩ := hm q hq; exact ⟨c, c1, by simpa using c2⟩
      · obtain ⟨c, c1, c2⟩ := hm q hq; exact ⟨c, c1, by simpa using c2⟩
      · rcases List.mem_cons.1 h1 with h3 | h3
        · rw [h3] at h2; exact absurd hq h2
        · exact h3
      · obtain ⟨c, c1, c2⟩ := ha q (List.mem_cons_of_mem _ hq); exact ⟨c, c1, by simpa using c2⟩
    · unfold at'
      rw [find_none hq]; rfl

theorem Ok.more {m n : List (I × α)} {p : Pack K I} (h : Ok m p) : Ok (m ++ n) p :=
  ⟨h.keys, fun q hq => by obtain ⟨a, h1, h2⟩ := h.arrays q hq; exact ⟨a, h1, by simp; omega⟩⟩

theorem Ok.lt {m : List (I × α)} {p : Pack K I} (h : Ok m p) {a : Nat} (ha : Uses p a) : a < m.length := by
  obtain ⟨k, hk⟩ := ha
  obtain ⟨b, h1, h2⟩ := h.arrays _ hk
  cases h1; exact h2

theorem Holds.more {m n : List (I × α)} {p : Pack K I} (h : Ok m p) {k : K} {v : α} : Holds (m ++ n) p k v ↔ Holds m p k v := by
  constructor <;> rintro ⟨a, i, h1, h2⟩ <;> refine ⟨a, i, h1, ?_⟩
  · rwa [List.getElem?_append_left (Ok.lt h ⟨k, h1⟩)] at h2
  · rwa [List.getElem?_append_left (Ok.lt h ⟨k, h1⟩)]

/-- `x+y` for packs with the same keys (which may share arrays): a new pack that holds the sums; the arrays there before are unchanged. -/
theorem C397_plus [DecidableEq K] [Add α] (m : List (I × α)) (x y : Pack K I) (hx : Ok m x) (hy : Ok m y) (hk : x.parts.map Prod.fst = y.parts.map Prod.fst) :
    ∃ m' r, plus m x y = .ok (m', r) ∧ r.vars = x.vars ∧ r.parts.map Prod.fst = x.parts.map Prod.fst ∧ (∀ k v w, Holds m x k v → Holds m y k w → Holds m' r k (v + w)) ∧
      ∀ c, c < m.length → m'[c]? = m[c]? := by
  obtain ⟨n, r, e1, e2, e3, e4, e5, e6, e7⟩ := C396_copy m x hx
  obtain ⟨m', f1, f2, f3, f4⟩ := C397_add (m ++ n) r y e4 (Ok.more hy) (e3.trans hk) e6 fun a ha hb => by
    have := e5 a ha
    have := Ok.lt hy hb
    omega
  refine ⟨m', r, by rw [plus, e1, Res.ok_bind]; simp only; rw [f1, Res.ok_bind], e2, e3, fun k v w hv hw => f3 k v w ((e7 k v).2 hv) ((Holds.more hy).2 hw), fun c hc => ?_⟩
  rw [f4 c fun h => by have := e5 c h; omega, List.getElem?_append_left hc]

example : ∃ m' r, plus [((), (5 : Int)), ((), 7), ((), 10)] (⟨(), [(1, some 1), (4, some 0)]⟩ : Pack Nat Unit) ⟨(), [(1, some 2), (4, some 2)]⟩ = .ok (m', r) ∧
    r.parts = [(1, some 3), (4, some 4)] ∧ m' = [((), 5), ((), 7), ((), 10), ((), 17), ((), 15)] := ⟨_, _, rfl, rfl, rfl⟩

example : BGPack.add [((), (5 : Int)), ((), 7)] (⟨(), [(1, some 1)]⟩ : Pack Nat Unit) ⟨(), [(2, some 0)]⟩ = .throw := rfl

/-- `zip` pairs the parts by keys, whatever the operation. -/
theorem C397_zip [DecidableEq K] (op : α → α → α) (m : List (I × α)) (r x : Pack K I) (hr : Ok m r) (hx : Ok m x) (hk : ∀ k ∈ r.parts.map Prod.fst, k ∈ x.parts.map Prod.fst)
    (hn : (r.parts.map Prod.snd).Nodup) (hd : ∀ a, Uses r a → ¬ Uses x a) :
    ∃ m', BGPack.zip op m r x = .ok m' ∧ m'.length = m.length ∧ (∀ k v w, Holds m r k v → Holds m x k w → Holds m' r k (op v w)) ∧ ∀ c, ¬ Uses r c → m'[c]? = m[c]? :=
  pair_all op hr hx hk hn hd

/-! ### C398: subtracting packs -/

/-- `subtract(x)` never subtracts `x`: it takes every part of `x` from itself and leaves the other arrays, those of the target among them, unchanged. -/
theorem C398_subtract_fails [DecidableEq K] [AddGroup α] (m : List (I × α)) (r x : Pack K I) (hx : Ok m x) (hl : x.parts.length = r.parts.length) (hn : (x.parts.map Prod.snd).Nodup) :
    ∃ m', subtract m r x = .ok m' ∧ (∀ k v, Holds m x k v → Holds m' x k 0) ∧ ∀ c, ¬ Uses x c → m'[c]? = m[c]? := by
  have key : ∀ (l : List (K × Option Nat)) (m : List (I × α)), (∀ q ∈ l, ∃ a, q.2 = some a ∧ a < m.length) → (l.map Prod.snd).Nodup → (∀ q ∈ l, at' x q.1 = .ok q.2) →
      ∃ m', Res.forM l m (fun m (q : K × Option Nat) => do let b ← at' x q.1; upd (· - ·) m q.2 b) = .ok m' ∧
        (∀ k a i v, (k, some a) ∈ l → m[a]? = some (i, v) → m'[a]? = some (i, v - v)) ∧ ∀ c, some c ∉ l.map Prod.snd → m'[c]? = m[c]? := by
    intro l
    induction l with
    | nil => intro m _ _ _; exact ⟨m, rfl, fun _ _ _ _ h => (List.not_mem_nil h).elim, fun _ _ => rfl⟩
    | cons q l ih =>
      intro m ha hn hat
      obtain ⟨a, h1, h2⟩ := ha q (by simp)
      simp only [List.map_cons, List.nodup_cons] at hn
      obtain ⟨m', e, hv, hk⟩ := ih (m.set a (m[a].1, m[a].2 - m[a].2)) (fun q hq => by
        obtain ⟨c, h6, h7⟩ := ha q (List.mem_cons_of_mem _ hq)
        exact ⟨c, h6, by simpa using h7⟩) hn.2 fun q hq => hat q (List.mem_cons_of_mem _ hq)
      have hal : some a ∉ l.map Prod.snd := by rw [← h1]; exact hn.1
      refine ⟨m', ?_, fun k a' i v hmem hma => ?_, fun c hc => ?_⟩
      · rw [Res.forM_cons, hat q (by simp), Res.ok_bind, h1, upd_ok _ h2 h2, Res.ok_bind, e]
      · rcases List.mem_cons.1 hmem with h6 | h6
        · rw [← h6] at h1
          cases h1
          rw [hk a hal, List.getElem?_set_self h2]
          rw [List.getElem?_eq_getElem h2] at hma
          rw [Option.some.inj hma]
        · have hne : a ≠ a' := fun e => hal (List.mem_map.2 ⟨_, h6, by rw [e]⟩)
          exact hv k a' i v h6 (by rw [List.getElem?_set_ne hne]; exact hma)
      · simp only [List.map_cons, List.mem_cons, not_or] at hc
        rw [hk c hc.2, List.getElem?_set_ne]
        rintro rfl
        exact hc.1 h1.symm
  obtain ⟨m', e, hv, hk⟩ := key x.parts m hx.arrays hn fun q hq => by
    rw [at_find (List.mem_map.2 ⟨q, hq, rfl⟩), find_mem hx.keys (a := q.2) hq]; rfl
  refine ⟨m', by rw [subtract, decide_eq_true hl, Res.assrt_true, Res.ok_bind, e], fun k v hvk => ?_, fun c hc => hk c fun h => hc (uses_mem.2 h)⟩
  obtain ⟨a, i, h1, h2⟩ := hvk
  exact ⟨a, i, h1, by rw [hv k a i v h1 h2, sub_self]⟩

/-- `x-y` is `x`, and `y` becomes zero. -/
theorem C398_minus_fails : ∃ m' r, minus [((), (5 : Int)), ((), 7)] (⟨(), [(1, some 0)]⟩ : Pack Nat Unit) ⟨(), [(1, some 1)]⟩ = .ok (m', r) ∧ r.parts = [(1, some 2)] ∧
    m' = [((), 5), ((), 0), ((), 5)] := ⟨_, _, rfl, rfl, rfl⟩

/-- If `y` holds only zeros the difference is right.  Missing: all other packs. -/
theorem C398_zero_partial [DecidableEq K] [AddGroup α] (m : List (I × α)) (x y : Pack K I) (hx : Ok m x) (hy : Ok m y) (hk : x.parts.map Prod.fst = y.parts.map Prod.fst)
    (hn : (y.parts.map Prod.snd).Nodup) (h0 : ∀ k w, Holds m y k w → w = 0) :
    ∃ m' r, minus m x y = .ok (m', r) ∧ ∀ k v w, Holds m x k v → Holds m y k w → Holds m' r k (v - w) ∧ Holds m' y k w := by
  obtain ⟨n, r, e1, e2, e3, e4, e5, e6, e7⟩ := C396_copy m x hx
  have hlen := congrArg List.length (hk.symm.trans e3.symm)
  simp only [List.length_map] at hlen
  obtain ⟨m', f1, f2, f3⟩ := C398_subtract_fails (m ++ n) r y (Ok.more hy) hlen hn
  refine ⟨m', r, by rw [minus, e1, Res.ok_bind]; simp only; rw [f1, Res.ok_bind], fun k v w hv hw => ?_⟩
  rw [h0 k w hw, sub_zero]
  refine ⟨?_, f2 k w ((Holds.more hy).2 hw)⟩
  obtain ⟨a, i, h1, h2⟩ := (e7 k v).2 hv
  exact ⟨a, i, h1, by rw [f3 a fun h => by have := e5 a ⟨k, h1⟩; have := Ok.lt hy h; omega]; exact h2⟩

example : Ok [((), (5 : Int)), ((), 0)] (⟨(), [(1, some 1)]⟩ : Pack Nat Unit) ∧ Holds [((), (5 : Int)), ((), 0)] (⟨(), [(1, some 1)]⟩ : Pack Nat Unit) 1 0 :=
  ⟨⟨by simp, fun q hq => ⟨1, by simp at hq; rw [hq], by simp⟩⟩, 1, (), by simp, rfl⟩

/-! ### C399: inserting parts -/

theorem emplace_mem [LinearOrder K] (k : K) (v : Option Nat) (l : List (K × Option Nat)) (h : k ∉ l.map Prod.fst) (q : K × Option Nat) : q ∈ emplace k v l ↔ q = (k, v) ∨ q ∈ l := by
  induction l with
  | nil => simp [emplace]
  | cons p l ih =>
    obtain ⟨k', v'⟩ := p
    simp only [List.map_cons, List.mem_cons, not_or] at h
    rw [emplace]
    split
    · simp
    · rw [if_neg h.1, List.mem_cons, ih h.2, List.mem_cons]
      tauto

theorem emplace_nodup [LinearOrder K] (k : K) (v : Option Nat) (l : List (K × Option Nat)) (h : k ∉ l.map Prod.fst) (hn : (l.map Prod.fst).Nodup) : ((emplace k v l).map Prod.fst).Nodup := by
  induction l with
  | nil => simp [emplace]
  | cons p l ih =>
    obtain ⟨k', v'⟩ := p
    have h' := h
    simp only [List.map_cons, List.mem_cons, not_or] at h'
    rw [emplace]
    split
    · rw [List.map_cons]; exact List.nodup_cons.2 ⟨h, hn⟩
    · rw [if_neg h'.1, List.map_cons]
      simp only [List.map_cons, List.nodup_cons] at hn
      refine List.nodup_cons.2 ⟨fun hm => ?_, ih h'.2 hn.2⟩
      obtain ⟨q, h1, h2⟩ := List.mem_map.1 hm
      rcases (emplace_mem k v l h'.2 q).1 h1 with h3 | h3
      · rw [h3] at h2; exact h'.1 h2
      · exact hn.1 (List.mem_map.2 ⟨q, h3, h2⟩)

theorem emplace_same [LinearOrder K] (k : K) (v : Option Nat) (l : List (K × Option Nat)) (hs : (l.map Prod.fst).Pairwise (· < ·)) (h : k ∈ l.map Prod.fst) : emplace k v l = l := by
  induction l with
  | nil => cases h
  | cons p l ih =>
    obtain ⟨k', v'⟩ := p
    simp only [List.map_cons, List.pairwise_cons] at hs
    rw [emplace]
    rcases List.mem_cons.1 h with h1 | h1
    · simp only at h1; rw [if_neg (by rw [h1]; exact lt_irrefl _), if_pos h1]
    · have := hs.1 k h1
      rw [if_neg (not_lt.2 this.le), if_neg this.ne', ih hs.2 h1]

/-- A part of the right sizes under a new key is there afterwards, with the array of the argument; the other parts stay. -/
theorem C399_insert [LinearOrder K] [DecidableEq I] (m : List (I × α)) (p : Pack K I) (hp : Ok m p) (k : K) (hk : k ∉ p.parts.map Prod.fst) (x : Nat) (i : I) (v : α)
    (hx : m[x]? = some (i, v)) (hi : p.parts = [] ∨ i = p.vars) :
    ∃ r, BGPack.insert m p k x = .ok r ∧ r.vars = i ∧ Ok m r ∧ find k r.parts = some (some x) ∧ ∀ k' w, Holds m r k' w ↔ (k' = k ∧ w = v) ∨ Holds m p k' w := by
  have hlt := (List.getElem?_eq_some_iff.1 hx).1
  have hd : deref m (some x) = .ok (i, v) := by simp [deref, hx]
  have hvars : (if p.parts.length = 0 then i else p.vars) = i := by
    rcases hi with h | h
    · rw [h]; rfl
    · split
      · rfl
      · exact h.symm
  have hok : Ok m (⟨i, emplace k (some x) p.parts⟩ : Pack K I) := ⟨emplace_nodup k _ _ hk hp.keys, fun q hq => by
    rcases (emplace_mem k _ _ hk q).1 hq with h | h
    · exact ⟨x, by rw [h], hlt⟩
    · exact hp.arrays q h⟩
  refine ⟨⟨i, emplace k (some x) p.parts⟩, ?_, rfl, hok, find_mem hok.keys ((emplace_mem k _ _ hk _).2 (.inl rfl)), fun k' w => ?_⟩
  · rw [BGPack.insert, hd, Res.ok_bind]
    simp only
    rw [hvars, decide_eq_true rfl, Res.assrt_true, Res.ok_bind]
  · constructor
    · rintro ⟨a, j, h1, h2⟩
      rcases (emplace_mem k _ _ hk _).1 h1 with h | h
      · cases h
        rw [hx] at h2
        cases h2
        exact .inl ⟨rfl, rfl⟩
      · exact .inr ⟨a, j, h, h2⟩
    · rintro (⟨rfl, rfl⟩ | ⟨a, j, h1, h2⟩)
      · exact ⟨x, i, (emplace_mem k' _ _ hk _).2 (.inl rfl), hx⟩
      · exact ⟨a, j, (emplace_mem k _ _ hk _).2 (.inr h1), h2⟩

/-- A part of other sizes is refused. -/
theorem C399_refused [LinearOrder K] [DecidableEq I] (m : List (I × α)) (p : Pack K I) (k : K) (x : Nat) (i : I) (v : α) (hx : m[x]? = some (i, v)) (h0 : p.parts ≠ [])
    (hi : i ≠ p.vars) : BGPack.insert m p k x = .throw := by
  have hd : deref m (some x) = .ok (i, v) := by simp [deref, hx]
  rw [BGPack.insert, hd, Res.ok_bind]
  simp only
  rw [if_neg (by simpa using h0), decide_eq_false hi]
  rfl

/-- A removed key is gone, the other parts stay. -/
theorem C399_remove [DecidableEq K] (m : List (I × α)) (p : Pack K I) (hp : Ok m p) (k : K) :
    find k (remove p k).parts = none ∧ Ok m (remove p k) ∧ ∀ k' w, Holds m (remove p k) k' w ↔ k' ≠ k ∧ Holds m p k' w := by
  refine ⟨find_none fun h => ?_, ⟨hp.keys.sublist (List.filter_sublist.map _), fun q hq => hp.arrays q (List.mem_filter.1 hq).1⟩, fun k' w => ?_⟩
  · obtain ⟨q, h1, h2⟩ := List.mem_map.1 h
    simpa [h2] using (List.mem_filter.1 h1).2
  · constructor
    · rintro ⟨a, i, h1, h2⟩
      obtain ⟨h3, h4⟩ := List.mem_filter.1 h1
      exact ⟨by simpa using h4, a, i, h3, h2⟩
    · rintro ⟨h0, a, i, h1, h2⟩
      exact ⟨a, i, List.mem_filter.2 ⟨h1, by simpa using h0⟩, h2⟩

example : BGPack.insert [(3, (5 : Int)), (3, 7)] (⟨3, [(1, some 0)]⟩ : Pack Nat Nat) 0 1 = .ok ⟨3, [(0, some 1), (1, some 0)]⟩ ∧
    BGPack.insert [(3, (5 : Int)), (4, 7)] (⟨3, [(1, some 0)]⟩ : Pack Nat Nat) 0 1 = .throw := ⟨rfl, rfl⟩

/-! ### C400: inserting under a key that is in use -/

/-- `insert` under a key that is in use changes nothing: the new part is dropped. -/
theorem C400_replace_fails [LinearOrder K] [DecidableEq I] (m : List (I × α)) (p : Pack K I) (hs : (p.parts.map Prod.fst).Pairwise (· < ·)) (k : K) (hk : k ∈ p.parts.map Prod.fst)
    (x : Nat) (v : α) (hx : m[x]? = some (p.vars, v)) : BGPack.insert m p k x = .ok p := by
  have hd : deref m (some x) = .ok (p.vars, v) := by simp [deref, hx]
  rw [BGPack.insert, hd, Res.ok_bind]
  simp only
  rw [ite_self, decide_eq_true rfl, Res.assrt_true, Res.ok_bind, emplace_same _ _ _ hs hk]

example : BGPack.insert [((), (5 : Int)), ((), 7)] (⟨(), [(1, some 0)]⟩ : Pack Nat Unit) 1 1 = .ok ⟨(), [(1, some 0)]⟩ := rfl

/-! ### C401: assigning packs -/

/-- `r=x` when every key of `r` is in `x`, with separate arrays: the parts of `r` hold what those of `x` hold.  Missing: keys that only one of them has. -/
theorem C401_assign_partial [DecidableEq K] [DecidableEq I] (m : List (I × α)) (r x : Pack K I) (hr : Ok m r) (hx : Ok m x) (hv : r.vars = x.vars)
    (hk : ∀ k ∈ r.parts.map Prod.fst, k ∈ x.parts.map Prod.fst) (hn : (r.parts.map Prod.snd).Nodup) (hd : ∀ a, Uses r a → ¬ Uses x a) :
    ∃ m', assign m r x = .ok m' ∧ (∀ k v w, Holds m r k v → Holds m x k w → Holds m' r k w) ∧ ∀ c, ¬ Uses r c → m'[c]? = m[c]? := by
  obtain ⟨m', e, _, h2, h3⟩ := pair_all (fun _ w => w) hr hx hk hn hd
  refine ⟨m', ?_, h2, h3⟩
  rw [assign, decide_eq_true hv, Res.assrt_true, Res.ok_bind, ← e]
  refine res_forM_congr _ _ _ _ fun m q hq => ?_
  simp only [upd]
  cases h1 : deref m q.2 with
  | ok v =>
    cases h4 : deref m ((find q.1 x.parts).getD none) with
    | ok w => rfl
    | throw => rfl
    | ub => rfl
  | throw =>
    unfold deref at h1
    split at h1
    · cases h1
    · split at h1 <;> cases h1
  | ub =>
    cases h4 : deref m ((find q.1 x.parts).getD none) with
    | ok w => rfl
    | throw =>
      unfold deref at h4
      split at h4
      · cases h4
      · split at h4 <;> cases h4
    | ub => rfl

/-- A key that `x` does not have: a null pointer is read.  A key that only `x` has: it is not taken over. -/
theorem C401_assign_fails : assign [((), (5 : Int)), ((), 7)] (⟨(), [(1, some 0)]⟩ : Pack Nat Unit) ⟨(), [(2, some 1)]⟩ = .ub ∧
    assign [((), (5 : Int)), ((), 7)] (⟨(), []⟩ : Pack Nat Unit) ⟨(), [(2, some 1)]⟩ = .ok [((), 5), ((), 7)] := ⟨rfl, rfl⟩

example : assign [((), (5 : Int)), ((), 7)] (⟨(), [(1, some 0)]⟩ : Pack Nat Unit) ⟨(), [(1, some 1), (2, some 1)]⟩ = .ok [((), 7), ((), 7)] := rfl

/-! ### C402: gradients -/

theorem gstep_ok [AddMonoid α] (share : Bool) (m0 m : List (I × α)) (o : Diff) (c : GCmd α) (val : Nat → α) (hm : ∀ a, a < m0.length → m[a]? = m0[a]?) (hle : m0.length ≤ m.length)
    (hval : ∀ a i v, m0[a]? = some (i, v) → v = val a) (hc : ∀ x, reads c = some x → x < m0.length) (g : Nat) (hg : o.grad = some g) (hg0 : m0.length ≤ g) (i : I) (t : α)
    (ht : m[g]? = some (i, t)) :
    ∃ m', gstep share (m, o) c = .ok (m', o) ∧ (∀ a, a < m0.length → m'[a]? = m0[a]?) ∧ m0.length ≤ m'.length ∧ m'[g]? = some (i, t + contribution val c) := by
  have hgl := (List.getElem?_eq_some_iff.1 ht).1
  have hgv : m[g] = (i, t) := (List.getElem?_eq_some_iff.1 ht).2
  have hx : ∀ x, x < m0.length → ∃ h : x < m.length, m[x].2 = val x := fun x hx => by
    refine ⟨by omega, ?_⟩
    have := hm x hx
    rw [List.getElem?_eq_getElem (by omega), List.getElem?_eq_getElem hx] at this
    rw [Option.some.inj this]
    exact hval x _ _ (List.getElem?_eq_getElem hx)
  cases c with
  | add x =>
    obtain ⟨h1, h2⟩ := hx x (hc x rfl)
    refine ⟨m.set g (i, t + val x), ?_, fun a ha => by rw [List.getElem?_set_ne (by omega), hm a ha], by simpa using hle, List.getElem?_set_self hgl⟩
    simp only [gstep, addToGrad, hg]
    rw [upd_ok _ hgl h1, Res.ok_bind, hgv, h2]
  | addC f x =>
    obtain ⟨h1, h2⟩ := hx x (hc x rfl)
    refine ⟨m.set g (i, t + f (val x)), ?_, fun a ha => by rw [List.getElem?_set_ne (by omega), hm a ha], by simpa using hle, List.getElem?_set_self hgl⟩
    simp only [gstep, addToGradC, hg]
    rw [Res.ok_bind]
    simp only [hg]
    rw [upd_ok _ hgl h1, Res.ok_bind, hgv, h2]
  | get =>
    refine ⟨m, ?_, hm, hle, by rw [ht, contribution, add_zero]⟩
    simp only [gstep, getGrad, hg]

theorem grun_ok [AddMonoid α] (share : Bool) (m0 : List (I × α)) (val : Nat → α) (hval : ∀ a i v, m0[a]? = some (i, v) → v = val a) (p : List (GCmd α)) (m : List (I × α)) (o : Diff)
    (hm : ∀ a, a < m0.length → m[a]? = m0[a]?) (hle : m0.length ≤ m.length) (hc : ∀ c ∈ p, ∀ x, reads c = some x → x < m0.length) (g : Nat) (hg : o.grad = some g)
    (hg0 : m0.length ≤ g) (i : I) (t : α) (ht : m[g]? = some (i, t)) :
    ∃ m', grun share (m, o) p = .ok (m', o) ∧ (∀ a, a < m0.length → m'[a]? = m0[a]?) ∧ m'[g]? = some (i, t + (p.map (contribution val)).sum) := by
  induction p generalizing m t with
  | nil => exact ⟨m, rfl, hm, by simpa using ht⟩
  | cons c p ih =>
    obtain ⟨m1, e1, h1, h2, h3⟩ := gstep_ok share m0 m o c val hm hle hval (hc c (by simp)) g hg hg0 i t ht
    obtain ⟨m2, e2, h4, h5⟩ := ih m1 h1 h2 (fun c hc' => hc c (List.mem_cons_of_mem _ hc')) _ h3
    refine ⟨m2, by rw [grun, Res.forM_cons, e1, Res.ok_bind]; exact e2, h4, ?_⟩
    rw [h5, List.map_cons, List.sum_cons, add_assoc]

/-- The gradient of an object is the sum of what was added to it, in an array of its own, and the arrays added are unchanged: for objects whose copies have their own
array, or if the first addition is not a plain one.  Missing: a plain first addition for tensors (see `C402_first_fails`). -/
theorem C402_gradient_partial [AddMonoid α] (share : Bool) (m : List (I × α)) (o : Diff) (val : Nat → α) (hval : ∀ a i v, m[a]? = some (i, v) → v = val a) (p : List (GCmd α))
    (hp : p ≠ []) (ho : o.arr < m.length) (h0 : o.grad = none) (hc : ∀ c ∈ p, ∀ x, reads c = some x → x < m.length) (hs : share = false ∨ ∀ c, p.head? = some c → isAdd c = false) :
    ∃ m' o' g i, grun share (m, o) p = .ok (m', o') ∧ o'.arr = o.arr ∧ o'.grad = some g ∧ m.length ≤ g ∧ m'[g]? = some (i, (p.map (contribution val)).sum) ∧
      ∀ a, a < m.length → m'[a]? = m[a]? := by
  cases p with
  | nil => exact absurd rfl hp
  | cons c p =>
    have first : ∃ i, gstep share (m, o) c = .ok (m ++ [(i, contribution val c)], { o with grad := some m.length }) := by
      have hv : ∀ x, ∀ hx : x < m.length, m[x].2 = val x := fun x hx => hval x _ _ (List.getElem?_eq_getElem hx)
      cases c with
      | add x =>
        have hsh : share = false := hs.resolve_right fun h => by have := h _ rfl; cases this
        have hx := hc (.add x) (by simp) x rfl
        refine ⟨m[x].1, ?_⟩
        simp only [gstep, addToGrad, h0, hsh, Bool.false_eq_true, if_false]
        rw [deref_ok hx, Res.ok_bind, contribution, ← hv x hx]
      | addC f x =>
        have hx := hc (.addC f x) (by simp) x rfl
        refine ⟨m[x].1, ?_⟩
        simp only [gstep, addToGradC, h0]
        rw [deref_ok hx, Res.ok_bind, Res.ok_bind]
        simp only
        rw [upd_ok _ (by simp) (by simp; omega), Res.ok_bind]
        simp only [List.getElem_append_left hx, List.getElem_append_right (Nat.le_refl m.length), Nat.sub_self, List.getElem_cons_zero, zero_add, hv x hx, contribution]
        rw [List.set_append_right _ _ (Nat.le_refl _), Nat.sub_self]
        rfl
      | get =>
        refine ⟨m[o.arr].1, ?_⟩
        simp only [gstep, getGrad, h0]
        rw [deref_ok ho, Res.ok_bind]
        rfl
    obtain ⟨i, e1⟩ := first
    obtain ⟨m2, e2, h2, h3⟩ := grun_ok share m val hval p (m ++ [(i, contribution val c)]) { o with grad := some m.length } (fun a ha => List.getElem?_append_left ha) (by simp)
      (fun c hc' => hc c (List.mem_cons_of_mem _ hc')) m.length rfl (Nat.le_refl _) i (contribution val c) (by simp)
    exact ⟨m2, { o with grad := some m.length }, m.length, i, by rw [grun, Res.forM_cons, e1, Res.ok_bind]; exact e2, rfl, rfl, Nat.le_refl _, by rw [h3, List.map_cons, List.sum_cons], h2⟩

/-- A plain first addition to a tensor makes the gradient share the array added: later additions change that array, and adding it again doubles. -/
theorem C402_first_fails : ∃ m' o', grun true ([((), (1 : Int)), ((), 10), ((), 100)], ⟨0, none⟩) [.add 1, .add 2, .add 1] = .ok (m', o') ∧ o'.grad = some 1 ∧
    m' = [((), 1), ((), 220), ((), 100)] := ⟨_, _, rfl, rfl, rfl⟩

example : ∃ m' o', grun true ([((), (1 : Int)), ((), 10), ((), 100)], ⟨0, none⟩) [.get, .add 1, .addC (3 * ·) 2, .add 1] = .ok (m', o') ∧ o'.grad = some 3 ∧
    m' = [((), 1), ((), 10), ((), 100), ((), 320)] := ⟨_, _, rfl, rfl, rfl⟩

end Cnine
