import Verif.Lemmas.Maps
import Mathlib.Data.List.Induction
import Mathlib.Order.Nat

/-! # C56, C59, C60, C100–C105: maps -/

namespace Cnine

/-! ## Bidirectional maps -/

namespace BMap

variable {κ υ : Type _} [DecidableEq κ] [DecidableEq υ]

/-- Forward and backward lookup are inverse. -/
def Inverse (m : BMap κ υ) : Prop := ∀ k v, m.forward k = some v ↔ m.backward v = some k

/-- Specification: a partial function. -/
def specStep (S : κ → Option υ) : Op κ υ → κ → Option υ
  | .insert k v => fun j => if j = k then some v else S j
  | .erase k => fun j => if j = k then none else S j
  | .eraseBackward v => fun j => if S j = some v then none else S j
  | .clear => fun _ => none

/-- Neither the key nor the value of an insertion is bound to something else. -/
def Guard (S : κ → Option υ) : Op κ υ → Prop
  | .insert k v => (∀ w, S k = some w → w = v) ∧ ∀ j, S j = some v → j = k
  | _ => True

/-- Every call of a history is guarded. -/
def Guarded (S : κ → Option υ) : List (Op κ υ) → Prop
  | [] => True
  | o :: os => Guard S o ∧ Guarded (specStep S o) os

/-- Running a history. -/
def run (m : BMap κ υ) : List (Op κ υ) → Res (BMap κ υ)
  | [] => .ok m
  | o :: os => do
    let m' ← m.step o
    run m' os

/-- The map holds `S`. -/
structure Holds (m : BMap κ υ) (S : κ → Option υ) : Prop where
  okf : UMap.Ok m.fmap
  okb : UMap.Ok m.bmap
  fwd : ∀ k, m.forward k = S k
  bwd : ∀ v k, m.backward v = some k ↔ S k = some v

theorem holds_step {m : BMap κ υ} {S : κ → Option υ} (h : Holds m S) {o : Op κ υ} (g : Guard S o) :
    ∃ m', m.step o = .ok m' ∧ Holds m' (specStep S o) := by
  cases o with
  | clear => exact ⟨_, rfl, ⟨UMap.ok_nil, UMap.ok_nil, fun _ => rfl, fun _ _ => by simp [backward, clear, UMap.find?, specStep]⟩⟩
  | insert k v =>
    obtain ⟨g1, g2⟩ := g
    have hk := h.fwd k
    unfold forward at hk
    simp only [step, insert]
    cases hf : UMap.find? k m.fmap with
    | some w =>
      rw [hf] at hk
      have hw : w = v := g1 w hk.symm
      subst hw
      refine ⟨m, by simp, ⟨h.okf, h.okb, fun j => ?_, fun v' j => ?_⟩⟩
      · simp only [specStep]
        split
        · rename_i e; subst e; rw [h.fwd, hk]
        · exact h.fwd j
      · simp only [specStep]
        split
        · rename_i e; subst e; rw [h.bwd, hk]
        · exact h.bwd v' j
    | none =>
      rw [hf] at hk
      have hb : UMap.find? v m.bmap = none := by
        cases hb : UMap.find? v m.bmap with
        | none => rfl
        | some j =>
          have h1 := (h.bwd v j).mp hb
          have := g2 j h1
          subst this
          rw [← hk] at h1; cases h1
      refine ⟨_, rfl, ⟨h.okf.emplace _ _, h.okb.emplace _ _, fun j => ?_, fun v' j => ?_⟩⟩
      · simp only [forward, specStep]
        rw [UMap.find?_emplace, hf]
        split
        · rfl
        · exact h.fwd j
      · simp only [backward, specStep]
        rw [UMap.find?_emplace, hb]
        by_cases c : v' = v
        · subst c
          rw [if_pos rfl]
          by_cases d : j = k
          · subst d; simp
          · rw [if_neg d]
            constructor
            · intro e; injection e with e; exact absurd e.symm d
            · intro e; exact absurd (g2 j e) d
        · rw [if_neg c]
          by_cases d : j = k
          · subst d
            rw [if_pos rfl]
            have := h.bwd v' j
            unfold backward at this
            rw [this, ← hk]
            constructor
            · intro e; cases e
            · intro e; injection e with e; exact absurd e.symm c
          · rw [if_neg d]
            exact h.bwd v' j
  | erase k =>
    simp only [step, erase]
    have hk := h.fwd k
    unfold forward at hk
    cases hf : UMap.find? k m.fmap with
    | none =>
      rw [hf] at hk
      refine ⟨m, rfl, ⟨h.okf, h.okb, fun j => ?_, fun v j => ?_⟩⟩
      · simp only [specStep]; split
        · rename_i e; subst e; rw [h.fwd, hk]
        · exact h.fwd j
      · simp only [specStep]; split
        · rename_i e; subst e; rw [h.bwd, ← hk]
        · exact h.bwd v j
    | some w =>
      rw [hf] at hk
      refine ⟨_, rfl, ⟨h.okf.erase _, h.okb.erase _, fun j => ?_, fun v j => ?_⟩⟩
      · simp only [forward, specStep]
        rw [UMap.find?_erase]
        split
        · rfl
        · exact h.fwd j
      · simp only [backward, specStep]
        rw [UMap.find?_erase]
        have hb := h.bwd v j
        unfold backward at hb
        by_cases c : v = w
        · subst c
          rw [if_pos rfl]
          by_cases d : j = k
          · rw [if_pos d]; simp
          · rw [if_neg d]
            constructor
            · intro e; cases e
            · intro e
              have h1 := (h.bwd v k).mpr hk.symm
              have h2 := (h.bwd v j).mpr e
              rw [h1] at h2
              injection h2 with h2
              exact absurd h2.symm d
        · rw [if_neg c, hb]
          by_cases d : j = k
          · subst d
            rw [if_pos rfl, ← hk]
            constructor
            · intro e; injection e with e; exact absurd e.symm c
            · intro e; cases e
          · rw [if_neg d]
  | eraseBackward w =>
    simp only [step, eraseBackward]
    cases hb : UMap.find? w m.bmap with
    | none =>
      have hn : ∀ j, S j ≠ some w := by
        intro j e
        have := (h.bwd w j).mpr e
        unfold backward at this
        rw [hb] at this; cases this
      have he : specStep S (.eraseBackward w) = S := by
        funext j
        simp only [specStep]
        rw [if_neg (hn j)]
      rw [he]
      exact ⟨m, rfl, h⟩
    | some k =>
      have hk : S k = some w := (h.bwd w k).mp hb
      have hu : ∀ j, S j = some w ↔ j = k := by
        intro j
        constructor
        · intro e
          have := (h.bwd w j).mpr e
          unfold backward at this
          rw [hb] at this
          injection this with this
          exact this.symm
        · rintro rfl; exact hk
      refine ⟨_, rfl, ⟨h.okf.erase _, h.okb.erase _, fun j => ?_, fun v j => ?_⟩⟩
      · simp only [forward, specStep]
        rw [UMap.find?_erase]
        by_cases c : j = k
        · rw [if_pos c, if_pos ((hu j).mpr c)]
        · rw [if_neg c, if_neg (fun e => c ((hu j).mp e))]
          exact h.fwd j
      · simp only [backward, specStep]
        rw [UMap.find?_erase]
        have hv := h.bwd v j
        unfold backward at hv
        by_cases c : v = w
        · subst c
          rw [if_pos rfl]
          split
          · simp
          · rename_i d
            constructor
            · intro e; cases e
            · intro e; exact absurd e d
        · rw [if_neg c, hv]
          split
          · rename_i d
            rw [d]
            constructor
            · intro e; injection e with e; exact absurd e.symm c
            · intro e; cases e
          · rfl

/-- As long as no insertion rebinds a key or a value, every history runs without undefined behaviour, forward lookup is the
partial function the calls describe, and backward lookup is its inverse. -/
theorem C56_guarded_partial (ops : List (Op κ υ)) (g : Guarded (fun _ => none) ops) :
    ∃ m, run empty ops = .ok m ∧ (∀ k, m.forward k = (ops.foldl specStep fun _ => none) k) ∧ m.Inverse := by
  have key : ∀ (ops : List (Op κ υ)) (m : BMap κ υ) (S : κ → Option υ), Holds m S → Guarded S ops →
      ∃ m', run m ops = .ok m' ∧ Holds m' (ops.foldl specStep S) := by
    intro ops
    induction ops with
    | nil => intro m S h _; exact ⟨m, rfl, h⟩
    | cons o os ih =>
      intro m S h g
      obtain ⟨m1, e1, h1⟩ := holds_step h g.1
      obtain ⟨m2, e2, h2⟩ := ih m1 _ h1 g.2
      refine ⟨m2, ?_, h2⟩
      simp only [run, e1]
      exact e2
  obtain ⟨m, e, h⟩ := key ops empty _ ⟨UMap.ok_nil, UMap.ok_nil, fun _ => rfl, fun v k => by rw [show backward (empty : BMap κ υ) v = none from rfl]; constructor <;> intro e <;> cases e⟩ g
  refine ⟨m, e, h.fwd, fun k v => ?_⟩
  rw [h.bwd, h.fwd]

/-- A guarded history. -/
def exOps : List (Op Nat Nat) := [.insert 1 10, .insert 2 20, .insert 1 10, .erase 1, .insert 3 10, .eraseBackward 20]

example : Guarded (fun _ => none) exOps := by
  refine ⟨⟨?_, ?_⟩, ⟨?_, ?_⟩, ⟨?_, ?_⟩, trivial, ⟨?_, ?_⟩, trivial, trivial⟩ <;> simp [specStep] <;> (try intros) <;> split_ifs at * <;> simp_all

example : run (empty : BMap Nat Nat) exOps = .ok ⟨[(3, 10)], [(10, 3)]⟩ := by decide

/-- **Rebinding a key is undefined behaviour**, from every state in which the lookups are inverse: line 56 erases the entry the
iterator used at line 57 points to. -/
theorem C56_rebind_key_fails {m : BMap κ υ} (h : m.Inverse) {k : κ} {v w : υ} (hf : m.forward k = some w) (hne : w ≠ v) :
    m.insert k v = .ub := by
  have hb := (h k w).mp hf
  unfold forward at hf
  unfold backward at hb
  unfold insert
  rw [hf]
  dsimp only
  rw [if_neg hne, if_pos hb]

example : (⟨[(1, 10)], [(10, 1)]⟩ : BMap Nat Nat).insert 1 11 = .ub := by decide

/-- **Binding a value to a second key breaks the inverse**: both keys lead to the value, the value leads to the first key. -/
theorem C56_rebind_value_fails : ∃ m : BMap Nat Nat, run empty [.insert 1 10, .insert 2 10] = .ok m ∧
    m.forward 2 = some 10 ∧ m.backward 10 = some 1 ∧ ¬ m.Inverse := by
  refine ⟨⟨[(1, 10), (2, 10)], [(10, 1)]⟩, by decide, by decide, by decide, fun h => ?_⟩
  have := (h 2 10).mp (by decide)
  revert this
  decide

/-- Exactly when `insert` works: from a state with inverse lookups it is undefined exactly if the key is bound to another value;
otherwise the lookups stay inverse exactly if the value was not bound to another key. -/
theorem C100_insert_exact {m : BMap κ υ} (h : m.Inverse) (k : κ) (v : υ) :
    (m.insert k v = .ub ↔ ∃ w, w ≠ v ∧ m.forward k = some w) ∧
    ((∀ w, m.forward k = some w → w = v) → ∃ m', m.insert k v = .ok m' ∧ m'.forward k = some v ∧
      (∀ j, j ≠ k → m'.forward j = m.forward j) ∧ (m'.Inverse ↔ ∀ j, m.backward v = some j → j = k)) := by
  cases hf : UMap.find? k m.fmap with
  | some w =>
    have hfw : m.forward k = some w := hf
    have hb := (h k w).mp hfw
    constructor
    · constructor
      · intro e
        by_cases c : w = v
        · subst c
          unfold insert at e
          rw [hf] at e
          simp at e
        · exact ⟨w, c, hfw⟩
      · rintro ⟨w', c, e⟩
        exact C56_rebind_key_fails h e c
    · intro hall
      have : w = v := hall w hfw
      subst this
      refine ⟨m, ?_, hfw, fun _ _ => rfl, ?_⟩
      · unfold insert; rw [hf]; simp
      · constructor
        · intro _ j e
          rw [hb] at e
          injection e with e
          exact e.symm
        · intro _; exact h
  | none =>
    have hfw : m.forward k = none := hf
    have hins : m.insert k v = .ok ⟨UMap.emplace k v m.fmap, UMap.emplace v k m.bmap⟩ := by
      unfold insert; rw [hf]
    constructor
    · constructor
      · intro e; rw [hins] at e; cases e
      · rintro ⟨w', _, e⟩; rw [hfw] at e; cases e
    · intro _
      refine ⟨_, hins, ?_, ?_, ?_⟩
      · simp only [forward]; rw [UMap.find?_emplace, if_pos rfl, hf]; rfl
      · intro j hj
        simp only [forward]; rw [UMap.find?_emplace, if_neg hj]
      · have hF : ∀ j, UMap.find? j (UMap.emplace k v m.fmap) = if j = k then some v else m.forward j := by
          intro j; rw [UMap.find?_emplace, hf]; rfl
        have hB : ∀ u, UMap.find? u (UMap.emplace v k m.bmap) = if u = v then some ((m.backward v).getD k) else m.backward u := by
          intro u; rw [UMap.find?_emplace]; rfl
        constructor
        · intro hi j e
          have h1 := (hi k v).mp (by unfold forward; rw [hF, if_pos rfl])
          unfold backward at h1
          rw [hB, if_pos rfl, e] at h1
          injection h1
        · intro hall
          have hbv : m.backward v = none := by
            cases hbv : m.backward v with
            | none => rfl
            | some j =>
              have := hall j hbv
              subst this
              have := (h j v).mpr hbv
              rw [hfw] at this; cases this
          intro j u
          unfold forward backward
          rw [hF, hB, hbv]
          by_cases c : j = k
          · subst c
            rw [if_pos rfl]
            by_cases d : u = v
            · subst d; simp
            · rw [if_neg d]
              constructor
              · intro e; injection e with e; exact absurd e.symm d
              · intro e
                have := (h j u).mpr e
                rw [hfw] at this; cases this
          · rw [if_neg c]
            by_cases d : u = v
            · subst d
              rw [if_pos rfl]
              constructor
              · intro e
                have := (h j u).mp e
                rw [hbv] at this; cases this
              · intro e; injection e with e; exact absurd e.symm c
            · rw [if_neg d]; exact h j u

example : (⟨[(1, 10)], [(10, 1)]⟩ : BMap Nat Nat).Inverse := by
  intro k v
  simp only [forward, backward, UMap.find?]
  by_cases c : k = 1 <;> by_cases d : v = 10 <;> simp [c, d] <;> omega

end BMap

/-! ## Indexed maps -/

namespace IMap

variable {κ ω : Type} [LinearOrder κ]

/-- Specification: the last pointer inserted with a key. -/
def lastOf (l : List (κ × Nat)) (k : κ) : Option Nat := (l.reverse.find? fun p => p.1 = k).map Prod.snd

/-- The map after the insertions `l`. -/
def inserted (l : List (κ × Nat)) : IMap κ := l.foldl (fun m p => m.insert p.1 p.2) empty

theorem inserted_snoc (l : List (κ × Nat)) (p : κ × Nat) : inserted (l ++ [p]) = (inserted l).insert p.1 p.2 := by
  simp [inserted, List.foldl_append]

/-- After any insertions, the vector lists all pointers in order, and the key leads to the last pointer inserted with it: of
entries with the same key only the last is reachable by key. -/
theorem C59_lookup (l : List (κ × Nat)) :
    (inserted l).v = l.map Prod.snd ∧ ∀ k, OMap.find? k (inserted l).map = lastOf l k := by
  induction l using List.reverseRecOn with
  | nil => exact ⟨rfl, fun k => rfl⟩
  | append_singleton l p ih =>
    rw [inserted_snoc]
    refine ⟨by simp [insert, ih.1], fun k => ?_⟩
    simp only [insert]
    rw [OMap.find?_set, ih.2]
    unfold lastOf
    rw [List.reverse_append, List.reverse_singleton, List.singleton_append, List.find?_cons]
    by_cases c : k = p.1
    · subst c; simp
    · rw [if_neg c]
      have : decide (p.1 = k) = false := by simp [Ne.symm c]
      rw [this]

/-- With distinct keys, the `i`-th entry is found by its index and by its key. -/
theorem C59_distinct (l : List (κ × Nat)) (hd : (l.map Prod.fst).Nodup) {i : Nat} {k : κ} {p : Nat} (hi : l[i]? = some (k, p)) :
    (inserted l).atIdx i = .ok p ∧ (inserted l).atKey k = (p, inserted l) ∧ (inserted l).size = l.length := by
  obtain ⟨h1, h2⟩ := C59_lookup l
  refine ⟨?_, ?_, ?_⟩
  · unfold atIdx
    rw [h1, List.getElem?_map, hi]; rfl
  · have hl : lastOf l k = some p := by
      unfold lastOf
      have hm : (k, p) ∈ l.reverse := List.mem_reverse.mpr (List.mem_of_getElem? hi)
      have : (l.reverse.find? fun q => q.1 = k) = some (k, p) := by
        cases hf : l.reverse.find? fun q => q.1 = k with
        | none =>
          have := List.find?_eq_none.mp hf (k, p) hm
          simp at this
        | some q =>
          have hq := List.find?_some hf
          simp only [decide_eq_true_eq] at hq
          have hqm : q ∈ l := List.mem_reverse.mp (List.mem_of_find?_eq_some hf)
          have : q = (k, p) := List.inj_on_of_nodup_map hd hqm (List.mem_of_getElem? hi) hq
          rw [this]
      rw [this]; rfl
    unfold atKey
    rw [h2, hl]
  · unfold size; rw [h1, List.length_map]

example : (([(5, 100), (3, 200), (9, 300)] : List (Nat × Nat)).map Prod.fst).Nodup := by decide

/-- Reading an absent key gives the null pointer and inserts it: the key exists afterwards, though the size is unchanged. -/
theorem C59_read_inserts (m : IMap κ) {k : κ} (h : m.exists? k = false) :
    (m.atKey k).1 = 0 ∧ (m.atKey k).2.exists? k = true ∧ (m.atKey k).2.size = m.size ∧
    ∀ j, j ≠ k → (m.atKey k).2.exists? j = m.exists? j := by
  unfold exists? at h
  have hf : OMap.find? k m.map = none := by
    cases hf : OMap.find? k m.map with
    | none => rfl
    | some p => rw [hf] at h; cases h
  unfold atKey
  rw [hf]
  refine ⟨rfl, ?_, rfl, fun j hj => ?_⟩
  · simp only [exists?]; rw [OMap.find?_set, if_pos rfl]; rfl
  · simp only [exists?]; rw [OMap.find?_set, if_neg hj]

example : (inserted [(5, 100), (3, 200), (5, 300)] : IMap Nat) = ⟨[100, 200, 300], [(3, 200), (5, 300)]⟩ := by decide
example : (inserted [(5, 100)] : IMap Nat).exists? 7 = false := by decide

/-! ### Copies of `indexed_mapB` -/

/-- The objects of a map are allocated, below the next free address. -/
def Owns (h : OHeap ω) (l : List Nat) (os : List ω) : Prop :=
  l.length = os.length ∧ ∀ (i p : Nat) (o : ω), l[i]? = some p → os[i]? = some o → h.cell p = some o ∧ p < h.next ∧ p ≠ 0

/-- The addresses `n, n+1, …`. -/
def fresh (n : Nat) (k : Nat) : List Nat := (List.range k).map (n + ·)

theorem copyLoop_ok (key : ω → κ) : ∀ (l : List Nat) (os : List ω) (h : OHeap ω) (m : IMap κ), Owns h l os →
    ∃ h' m', copyLoop key l h m = .ok (h', m') ∧ h'.next = h.next + l.length ∧ m'.v = m.v ++ fresh h.next l.length ∧
      (∀ q < h.next, h'.cell q = h.cell q) ∧ (∀ i o, os[i]? = some o → h'.cell (h.next + i) = some o) ∧
      m'.map = (os.zip (fresh h.next l.length)).foldl (fun t e => OMap.set (key e.1) e.2 t) m.map := by
  intro l
  induction l with
  | nil =>
    intro os h m ho
    have : os = [] := by
      cases os with
      | nil => rfl
      | cons o os => simp [Owns] at ho
    subst this
    exact ⟨h, m, rfl, by simp, by simp [fresh], fun q hq => rfl, by simp, by simp⟩
  | cons p l ih =>
    intro os h m ho
    cases os with
    | nil => simp [Owns] at ho
    | cons o os =>
      obtain ⟨hl, hall⟩ := ho
      obtain ⟨hp, hlt, -⟩ := hall 0 p o rfl rfl
      have hlt' : ∀ (i q : Nat) (u : ω), l[i]? = some q → os[i]? = some u → h.cell q = some u ∧ q < h.next ∧ q ≠ 0 := by
        intro i q u h1 h2
        exact hall (i + 1) q u (by simpa using h1) (by simpa using h2)
      have ho' : Owns (alloc h o).2 l os := by
        refine ⟨by simpa using hl, fun i q u h1 h2 => ?_⟩
        obtain ⟨a1, a2, a3⟩ := hlt' i q u h1 h2
        refine ⟨?_, ?_, a3⟩
        · simp only [alloc]; rw [if_neg (by omega), a1]
        · simp only [alloc]; omega
      obtain ⟨h', m', e, e1, e2, e3, e4, e5⟩ := ih os (alloc h o).2 (m.insert (key o) h.next) ho'
      have hpb : pushBack key (alloc h o).2 m (alloc h o).1 = .ok (m.insert (key o) h.next) := by
        simp [pushBack, alloc]
      have hfr : fresh h.next (l.length + 1) = h.next :: fresh (h.next + 1) l.length := by
        simp only [fresh, List.range_succ_eq_map, List.map_cons, List.map_map]
        congr 1
        apply List.map_congr_left
        intro i _
        simp only [Function.comp]
        omega
      refine ⟨h', m', ?_, ?_, ?_, ?_, ?_, ?_⟩
      · unfold copyLoop
        rw [hp]
        dsimp only
        rw [hpb]
        exact e
      · rw [e1]; simp only [alloc, List.length_cons]; omega
      · rw [e2, List.length_cons, hfr]
        simp [insert, alloc]
      · intro q hq
        rw [e3 q (by simp only [alloc]; omega)]
        simp only [alloc]; rw [if_neg (by omega)]
      · intro i u hu
        cases i with
        | zero =>
          simp at hu; subst hu
          rw [Nat.add_zero, e3 h.next (by simp only [alloc]; omega)]
          simp [alloc]
        | succ i =>
          have := e4 i u (by simpa using hu)
          simp only [alloc] at this
          rw [← this]; congr 1; omega
      · rw [e5, List.length_cons, hfr]
        rfl

/-- Copying: the copy has new objects (no object is shared), equal to the originals, in the same order, filed under their own
keys; the original's objects are untouched. -/
theorem C101_copy (key : ω → κ) (h : OHeap ω) (x : IMap κ) (os : List ω) (ho : Owns h x.v os) :
    ∃ h' y, copy key h x = .ok (h', y) ∧ Owns h' y.v os ∧ (∀ q < h.next, h'.cell q = h.cell q) ∧ (∀ p ∈ y.v, p ∉ x.v) ∧
      y = inserted ((os.map key).zip y.v) := by
  obtain ⟨h', y, e, e1, e2, e3, e4, e5⟩ := copyLoop_ok key x.v os h empty ho
  simp only [empty, List.nil_append] at e2 e5
  have hmem : ∀ i p, y.v[i]? = some p → p = h.next + i ∧ i < x.v.length := by
    intro i p hp
    rw [e2] at hp
    simp only [fresh, List.getElem?_map] at hp
    obtain ⟨j, hj, rfl⟩ := Option.map_eq_some_iff.mp hp
    obtain ⟨hji, hj⟩ := List.getElem?_eq_some_iff.mp hj
    simp at hj hji
    subst hj
    exact ⟨rfl, hji⟩
  have hpos : ∀ p ∈ x.v, p < h.next := by
    intro p hp
    obtain ⟨i, hi⟩ := List.getElem?_of_mem hp
    have hil : i < os.length := by rw [← ho.1]; exact (List.getElem?_eq_some_iff.mp hi).1
    exact (ho.2 i p _ hi (List.getElem?_eq_getElem hil)).2.1
  have hnz : x.v ≠ [] → h.next ≠ 0 := by
    intro hne
    obtain ⟨p, hp⟩ := List.exists_mem_of_ne_nil _ hne
    have := hpos p hp
    omega
  refine ⟨h', y, e, ⟨?_, ?_⟩, e3, ?_, ?_⟩
  · rw [e2, ← ho.1]; simp [fresh]
  · intro i p o hp hu
    obtain ⟨rfl, hil⟩ := hmem i p hp
    refine ⟨e4 i o hu, by omega, ?_⟩
    have : x.v ≠ [] := by rintro hx; rw [hx] at hil; simp at hil
    have := hnz this
    omega
  · intro p hp hx
    obtain ⟨i, hi⟩ := List.getElem?_of_mem hp
    obtain ⟨rfl, -⟩ := hmem i p hi
    have := hpos _ hx
    omega
  · have key2 : ∀ (l : List (κ × Nat)) (m : IMap κ), l.foldl (fun m p => m.insert p.1 p.2) m =
        ⟨m.v ++ l.map Prod.snd, l.foldl (fun t e => OMap.set e.1 e.2 t) m.map⟩ := by
      intro l
      induction l with
      | nil => intro m; simp
      | cons p l ih => intro m; rw [List.foldl_cons, ih]; simp [insert]
    unfold inserted
    rw [key2]
    have hlen : (os.map key).length = y.v.length := by
      rw [List.length_map, e2, ← ho.1]; simp [fresh]
    have : y.map = ((os.map key).zip y.v).foldl (fun t e => OMap.set e.1 e.2 t) [] := by
      rw [e5, List.zip_map_left, List.foldl_map, e2]
      rfl
    simp only [empty, List.nil_append]
    rw [List.map_snd_zip (by omega), ← this]

/-- Two objects with keys 5 and 3. -/
def exHeap : OHeap (Nat × Nat) := ⟨fun q => if q = 1 then some (5, 50) else if q = 2 then some (3, 30) else none, 3⟩

example : Owns exHeap [1, 2] [(5, 50), (3, 30)] := by
  refine ⟨rfl, fun i p o hp hu => ?_⟩
  match i with
  | 0 => simp at hp hu; subst hp hu; exact ⟨rfl, by decide, by decide⟩
  | 1 => simp at hp hu; subst hp hu; exact ⟨rfl, by decide, by decide⟩
  | i + 2 => simp at hp

/-- **Self-assignment empties the map**: the objects are deleted before they are copied. -/
theorem C105_self_assign_fails (key : ω → κ) (h : OHeap ω) (m : IMap κ) {h' : OHeap ω} {m' : IMap κ}
    (e : assignSelf key h m = .ok (h', m')) : m' = empty := by
  unfold assignSelf wipe at e
  cases hd : deleteAll h m.v with
  | throw => rw [hd] at e; cases e
  | ub => rw [hd] at e; cases e
  | ok h1 =>
    rw [hd] at e
    simp [copyLoop] at e
    exact e.2.symm

example : ∃ h', assignSelf (fun o : Nat × Nat => o.1) exHeap (inserted [(5, 1), (3, 2)]) = .ok (h', empty) := ⟨_, rfl⟩

/-- **A pointer inserted twice is deleted twice.** -/
theorem C105_double_insert_fails (h : OHeap ω) {p : Nat} (hp : p ≠ 0) (k k' : κ) :
    wipe h (inserted [(k, p), (k', p)]) = .ub := by
  have hv : (inserted [(k, p), (k', p)] : IMap κ).v = [p, p] := rfl
  unfold wipe
  rw [hv]
  unfold deleteAll
  unfold delete
  rw [if_neg hp]
  cases hc : h.cell p with
  | none => rfl
  | some o =>
    simp [deleteAll, delete, hp]

/-- Entries made with `insert` under a key other than the object's own are filed differently in the copy. -/
theorem C105_foreign_key_fails : ∃ (h' : OHeap (Nat × Nat)) (y : IMap Nat),
    copy (fun o => o.1) exHeap (inserted [(7, 1)]) = .ok (h', y) ∧ (inserted [(7, 1)] : IMap Nat).exists? 7 = true ∧
      y.exists? 7 = false ∧ y.exists? 5 = true := ⟨_, _, rfl, by decide, by decide, by decide⟩

end IMap

/-! ## Maps of maps -/

namespace MoM

variable {κ ι α : Type _} [DecidableEq κ] [DecidableEq ι]

/-- Specification: the value of the last `set` at the pair. -/
def lastSet (l : List (κ × ι × α)) (i : κ) (j : ι) : Option α := (l.reverse.find? fun e => e.1 = i ∧ e.2.1 = j).map (·.2.2)

/-- The map after the calls `set(i,j,x)` of the list. -/
def sets (l : List (κ × ι × α)) : MoM κ ι α := l.foldl (fun m e => m.set e.1 e.2.1 e.2.2) []

theorem sets_snoc (l : List (κ × ι × α)) (e : κ × ι × α) : sets (l ++ [e]) = (sets l).set e.1 e.2.1 e.2.2 := by
  simp [sets, List.foldl_append]

theorem sets_ok (l : List (κ × ι × α)) : Ok (sets l) ∧ ∀ i j, look (sets l) i j = lastSet l i j := by
  induction l using List.reverseRecOn with
  | nil => exact ⟨ok_nil, fun i j => rfl⟩
  | append_singleton l e ih =>
    rw [sets_snoc]
    refine ⟨ih.1.set _ _ _, fun i j => ?_⟩
    rw [look_set, ih.2]
    unfold lastSet
    rw [List.reverse_append, List.reverse_singleton, List.singleton_append, List.find?_cons]
    by_cases c : i = e.1 ∧ j = e.2.1
    · obtain ⟨rfl, rfl⟩ := c; simp
    · rw [if_neg c]
      have : decide (e.1 = i ∧ e.2.1 = j) = false := by
        rw [decide_eq_false_iff_not]
        rintro ⟨h1, h2⟩
        exact c ⟨h1.symm, h2.symm⟩
      rw [this]

/-- Lookup gives the value last set, the default if there is none; `is_filled` says whether there is one. -/
theorem C60_get (l : List (κ × ι × α)) (dflt : α) (i : κ) (j : ι) :
    (sets l).get dflt i j = (lastSet l i j).getD dflt ∧ (sets l).isFilled i j = (lastSet l i j).isSome := by
  have h := (sets_ok l).2 i j
  rw [← h]
  unfold get isFilled look
  cases UMap.find? i (sets l) with
  | none => exact ⟨rfl, rfl⟩
  | some r => exact ⟨rfl, rfl⟩

/-- `for_each` visits every stored pair once, with its value. -/
theorem C60_forEach (l : List (κ × ι × α)) :
    ((sets l).forEach.map fun e => (e.1, e.2.1)).Nodup ∧ ∀ i j x, (i, j, x) ∈ (sets l).forEach ↔ lastSet l i j = some x := by
  obtain ⟨h1, h2⟩ := sets_ok l
  exact ⟨forEach_nodup h1, fun i j x => by rw [mem_forEach h1, h2]⟩

/-- `size` is the number of different pairs set. -/
theorem C60_size (l : List (κ × ι × α)) : (sets l).size = (l.map fun e => (e.1, e.2.1)).dedup.length := by
  rw [size_eq]
  obtain ⟨h1, h2⟩ := C60_forEach l
  have hp : ((sets l).forEach.map fun e => (e.1, e.2.1)).Perm (l.map fun e => (e.1, e.2.1)).dedup := by
    rw [List.perm_ext_iff_of_nodup h1 (List.nodup_dedup _)]
    rintro ⟨i, j⟩
    rw [List.mem_dedup, List.mem_map, List.mem_map]
    constructor
    · rintro ⟨⟨i', j', x⟩, he, e⟩
      injection e with e1 e2
      dsimp only at e1 e2
      subst e1 e2
      have := (h2 i' j' x).mp he
      unfold lastSet at this
      obtain ⟨q, hq, -⟩ := Option.map_eq_some_iff.mp this
      have hqm := List.mem_of_find?_eq_some hq
      have hqp := List.find?_some hq
      simp only [decide_eq_true_eq] at hqp
      exact ⟨q, List.mem_reverse.mp hqm, by rw [hqp.1, hqp.2]⟩
    · rintro ⟨e, he, heq⟩
      cases hl : lastSet l i j with
      | some x => exact ⟨(i, j, x), (h2 i j x).mpr hl, rfl⟩
      | none =>
        unfold lastSet at hl
        rw [Option.map_eq_none_iff, List.find?_eq_none] at hl
        have := hl e (List.mem_reverse.mpr he)
        injection heq with e1 e2
        simp [e1, e2] at this
  have := hp.length_eq
  rwa [List.length_map] at this

/-- Two maps are equal exactly if they hold the same pairs with the same values. -/
theorem C60_eq [DecidableEq α] (l l' : List (κ × ι × α)) :
    (sets l).beq (sets l') = true ↔ ∀ i j, lastSet l i j = lastSet l' i j := by
  obtain ⟨h1, h2⟩ := sets_ok l
  obtain ⟨h1', h2'⟩ := sets_ok l'
  unfold beq
  rw [Bool.and_eq_true, subsetOf_iff h1, subsetOf_iff h1']
  constructor
  · rintro ⟨a, b⟩ i j
    rw [← h2, ← h2']
    cases hl : look (sets l) i j with
    | some x => exact (a i j x hl).symm
    | none =>
      cases hl' : look (sets l') i j with
      | none => rfl
      | some y => rw [b i j y hl'] at hl; cases hl
  · intro h
    refine ⟨fun i j a e => ?_, fun i j a e => ?_⟩
    · rw [h2', ← h, ← h2]; exact e
    · rw [h2, h, ← h2']; exact e

example : (sets [(1, 2, 10), (3, 4, 20), (1, 2, 30), (1, 5, 40)] : MoM Nat Nat Nat) = [(1, [(2, 30), (5, 40)]), (3, [(4, 20)])] := by
  decide
example : (sets [(1, 2, 10), (3, 4, 20)] : MoM Nat Nat Nat).beq (sets [(3, 4, 20), (1, 2, 10)]) = true := by decide

/-- **The hash depends on the order of iteration**, which for an `unordered_map` is not determined by the contents: two equal maps
(the same pairs set in another order) with different hashes, when the maps iterate in the order of insertion. -/
theorem C102_hash_fails : ∃ l l' : List (Nat × Nat × Nat), (sets l).beq (sets l') = true ∧
    (sets l).hash (fun k => UInt64.ofNat k) (fun k => UInt64.ofNat k) (fun k => UInt64.ofNat k) ≠
      (sets l').hash (fun k => UInt64.ofNat k) (fun k => UInt64.ofNat k) (fun k => UInt64.ofNat k) :=
  ⟨[(1, 2, 10), (3, 4, 20)], [(3, 4, 20), (1, 2, 10)], by decide, by decide⟩

omit [DecidableEq κ] [DecidableEq ι] in
/-- Maps that list the same entries in the same order have the same hash. -/
theorem C102_hash_same_order_partial (hk : κ → UInt64) (hi : ι → UInt64) (ha : α → UInt64) {m m' : MoM κ ι α}
    (h : m.forEach = m'.forEach) : m.hash hk hi ha = m'.hash hk hi ha := by
  unfold hash; rw [h]

example : (sets [(1, 2, 10), (1, 2, 30)] : MoM Nat Nat Nat).forEach = (sets [(1, 2, 30)]).forEach := by decide

end MoM

/-! ## Maps of lists -/

namespace MoL

variable {κ α : Type _} [DecidableEq κ]

/-- The map after the calls of `push_back`. -/
def pushed (l : List (κ × α)) : MoL κ α := l.foldl (fun m e => m.pushBack e.1 e.2) []

theorem pushed_snoc (l : List (κ × α)) (e : κ × α) : pushed (l ++ [e]) = (pushed l).pushBack e.1 e.2 := by
  simp [pushed, List.foldl_append]

/-- Specification: the items pushed with key `k`, in order. -/
def itemsOf (l : List (κ × α)) (k : κ) : List α := (l.filter fun e => e.1 = k).map Prod.snd

theorem pushed_ok (l : List (κ × α)) : UMap.Ok (pushed l) ∧
    ∀ k, UMap.find? k (pushed l) = if itemsOf l k = [] then none else some (itemsOf l k) := by
  induction l using List.reverseRecOn with
  | nil => exact ⟨UMap.ok_nil, fun k => rfl⟩
  | append_singleton l e ih =>
    rw [pushed_snoc]
    refine ⟨ok_pushBack ih.1 _ _, fun k => ?_⟩
    rw [find?_pushBack, ih.2]
    have hs : itemsOf (l ++ [e]) k = itemsOf l k ++ if e.1 = k then [e.2] else [] := by
      unfold itemsOf
      rw [List.filter_append, List.map_append]
      by_cases c : e.1 = k <;> simp [c]
    rw [hs]
    by_cases c : k = e.1
    · subst c
      by_cases d : itemsOf l e.1 = []
      · simp [d]
      · simp [d]
    · rw [if_neg c, if_neg (Ne.symm c), List.append_nil, ih.2]

/-- Each list holds the items pushed with its key, in order; `total` is the number of pushes; `for_each` visits every pushed item
once (in some order); `max_size` is the length of a longest list; nothing is stored for keys never pushed. -/
theorem C103_lists (l : List (κ × α)) :
    (∀ k, (pushed l).forEachInList k = itemsOf l k) ∧ (pushed l).total = l.length ∧ ((pushed l).forEach).Perm l ∧
    (∀ k, (itemsOf l k).length ≤ (pushed l).maxSize) ∧ (l ≠ [] → ∃ k, (itemsOf l k).length = (pushed l).maxSize) := by
  obtain ⟨h1, h2⟩ := pushed_ok l
  have hperm : ((pushed l).forEach).Perm l := by
    clear h1 h2
    induction l using List.reverseRecOn with
    | nil => exact List.Perm.refl _
    | append_singleton l e ih =>
      rw [pushed_snoc]
      exact (forEach_pushBack _ _ _).trans (ih.append_right _)
  have hin : ∀ k, (pushed l).forEachInList k = itemsOf l k := by
    intro k
    unfold forEachInList
    rw [h2]
    split
    · rename_i h; rw [h]; rfl
    · rfl
  obtain ⟨m1, m2⟩ := maxSize_spec (pushed l)
  refine ⟨hin, ?_, hperm, ?_, ?_⟩
  · rw [total_eq, hperm.length_eq]
  · intro k
    by_cases c : itemsOf l k = []
    · rw [c]; exact Nat.zero_le _
    · have := h2 k
      rw [if_neg c] at this
      exact m1 _ (UMap.mem_of_find? this)
  · intro hne
    rcases m2 with h0 | ⟨p, hp, he⟩
    · cases l with
      | nil => exact absurd rfl hne
      | cons e l' =>
        have hb := h2 e.1
        have hi : itemsOf (e :: l') e.1 ≠ [] := by simp [itemsOf]
        rw [if_neg hi] at hb
        have := m1 _ (UMap.mem_of_find? hb)
        rw [h0] at this
        have := List.eq_nil_of_length_eq_zero (Nat.le_zero.mp this)
        exact absurd this hi
    · refine ⟨p.1, ?_⟩
      have := UMap.find?_of_mem h1 (show (p.1, p.2) ∈ pushed l from hp)
      rw [h2] at this
      split at this
      · cases this
      · injection this with this
        rw [this]; exact he

/-- After pushes only, `str` runs within the lists and writes each of them completely. -/
theorem C103_str (l : List (κ × α)) : (pushed l).strItems = .ok (pushed l) := by
  obtain ⟨h1, h2⟩ := pushed_ok l
  have hne : ∀ p ∈ pushed l, p.2 ≠ [] := by
    intro p hp e
    have := UMap.find?_of_mem h1 (show (p.1, p.2) ∈ pushed l from hp)
    rw [h2] at this
    split at this
    · cases this
    · rename_i c
      injection this with this
      rw [this] at c
      exact c e
  clear h1 h2
  revert hne
  generalize pushed l = m
  intro hne
  induction m with
  | nil => rfl
  | cons p m ih =>
    have h0 := hne p List.mem_cons_self
    have := ih (fun q hq => hne q (List.mem_cons_of_mem _ hq))
    unfold strItems at this ⊢
    rw [List.foldr_cons, this]
    rw [if_neg (fun e => h0 (List.eq_nil_of_length_eq_zero e))]
    simp

/-- **Printing a map with an empty list is undefined behaviour**, and `m[k]` for an absent key makes one. -/
theorem C103_str_empty (m : MoL κ α) {k : κ} (h : UMap.find? k m = none) (hm : ∀ p ∈ m, p.2 ≠ []) :
    (m.touch k).strItems = .ub := by
  unfold touch
  rw [h]
  dsimp only
  induction m with
  | nil => rfl
  | cons p m ih =>
    unfold UMap.find? at h
    split at h
    · cases h
    · rename_i c
      have h0 := hm p List.mem_cons_self
      have := ih h (fun q hq => hm q (List.mem_cons_of_mem _ hq))
      unfold UMap.set
      rw [if_neg c]
      unfold strItems at this ⊢
      rw [List.foldr_cons, this]
      rw [if_neg (fun e => h0 (List.eq_nil_of_length_eq_zero e))]
      rfl

example : (pushed [(1, 10), (2, 20), (1, 30)] : MoL Nat Nat) = [(1, [10, 30]), (2, [20])] := by decide
example : ((pushed [(1, 10)] : MoL Nat Nat).touch 2).strItems = .ub := by decide

end MoL

/-! ## Multivectors -/

namespace MVec

variable {α : Type _}

/-- The vectors after rows of length `k` were pushed: vector `j` lists the `j`-th entries. -/
def Holds (m : MVec α) (k : Nat) (rows : List (List α)) : Prop :=
  m.length = k ∧ ∀ (j : Nat) (v : List α), m[j]? = some v → v.map some = rows.map (·[j]?)

theorem pushLoop_ok : ∀ (m : MVec α) (l : List α), m.length = l.length →
    m.pushLoop l = .ok (List.zipWith (fun v x => v ++ [x]) m l)
  | [], [], _ => rfl
  | v :: m, x :: l, h => by
    unfold pushLoop
    rw [pushLoop_ok m l (by simpa using h)]
    rfl

theorem holds_push {m : MVec α} {k : Nat} {rows : List (List α)} (h : Holds m k rows) {l : List α} (hl : l.length = k) (hk : 0 < k) :
    ∃ m', m.pushBack l = .ok m' ∧ Holds m' k (rows ++ [l]) := by
  have hm : m.length = l.length := by rw [h.1, hl]
  refine ⟨List.zipWith (fun v x => v ++ [x]) m l, ?_, ?_, ?_⟩
  · unfold pushBack checkSize
    rw [if_neg (by omega)]
    simp [Res.assrt, hm, pushLoop_ok m l hm]
  · rw [List.length_zipWith, ← hm, Nat.min_self, h.1]
  · intro j v hv
    rw [List.getElem?_zipWith] at hv
    cases hmj : m[j]? with
    | none => rw [hmj] at hv; simp at hv
    | some w =>
      have hjl : j < l.length := by rw [← hm]; exact (List.getElem?_eq_some_iff.mp hmj).1
      rw [hmj, List.getElem?_eq_getElem hjl] at hv
      simp at hv
      subst hv
      rw [List.map_append, h.2 j w hmj]
      simp [hjl]

/-- Pushing rows of `k ≥ 1` entries into an empty multivector, or one made with `k`: no exception; `size` counts the rows and
`[i]` gives back row `i`; another index is out of bounds. -/
theorem C104_rows (k : Nat) (hk : 0 < k) (rows : List (List α)) (hr : ∀ r ∈ rows, r.length = k) (m0 : MVec α) (h0 : m0 = [] ∨ m0 = ofK k) :
    ∃ m, rows.foldl (fun (acc : Res (MVec α)) r => acc >>= fun m => pushBack m r) (.ok m0) = .ok m ∧ m.size = rows.length ∧
      (∀ i r, rows[i]? = some r → m.get i = .ok r) ∧ (rows ≠ [] → ∀ i, rows.length ≤ i → m.get i = .ub) := by
  have hof : Holds (ofK k : MVec α) k [] := by
    refine ⟨by simp [ofK], fun j v hv => ?_⟩
    simp only [ofK, List.getElem?_replicate] at hv
    split at hv
    · injection hv with hv; subst hv; rfl
    · cases hv
  have hpush : ∀ (rows : List (List α)) (m : MVec α) (old : List (List α)), Holds m k old → (∀ r ∈ rows, r.length = k) →
      ∃ m', rows.foldl (fun (acc : Res (MVec α)) r => acc >>= fun m => pushBack m r) (.ok m) = .ok m' ∧ Holds m' k (old ++ rows) := by
    intro rows
    induction rows with
    | nil => intro m old h _; exact ⟨m, rfl, by simpa using h⟩
    | cons r rows ih =>
      intro m old h hr
      obtain ⟨m1, e1, h1⟩ := holds_push h (hr r List.mem_cons_self) hk
      obtain ⟨m2, e2, h2⟩ := ih m1 _ h1 (fun q hq => hr q (List.mem_cons_of_mem _ hq))
      refine ⟨m2, ?_, by simpa using h2⟩
      rw [List.foldl_cons]
      show List.foldl _ (pushBack m r) rows = _
      rw [e1]; exact e2
  have hread : ∀ (m : MVec α), Holds m k rows → m.size = rows.length ∧
      (∀ i r, rows[i]? = some r → m.get i = .ok r) ∧ (∀ i, rows.length ≤ i → m.get i = .ub) := by
    intro m h
    have hcol : ∀ (j : Nat) (v : List α), m[j]? = some v → v.length = rows.length ∧ ∀ (i : Nat) (r : List α), rows[i]? = some r → v[i]? = r[j]? := by
      intro j v hv
      have e := h.2 j v hv
      refine ⟨by simpa using congrArg List.length e, fun i r hi => ?_⟩
      have := congrArg (fun l => l[i]?) e
      simp only [List.getElem?_map, hi] at this
      cases hvi : v[i]? with
      | none => rw [hvi] at this; cases this
      | some x =>
        rw [hvi] at this
        simpa using this
    refine ⟨?_, ?_, ?_⟩
    · cases m with
      | nil => have := h.1; simp at this; omega
      | cons v m => exact (hcol 0 v rfl).1
    · intro i r hi
      have hrl := hr r (List.mem_of_getElem? hi)
      have : ∀ (m : MVec α) (s : List α), m.length = s.length → (∀ (j : Nat) (v : List α), m[j]? = some v → v[i]? = s[j]?) → m.get i = .ok s := by
        intro m
        induction m with
        | nil =>
          intro s hs _
          have := List.eq_nil_of_length_eq_zero (by simpa using hs.symm)
          subst this; rfl
        | cons v m ih =>
          intro s hs hc
          cases s with
          | nil => simp at hs
          | cons x s =>
            have h1 := hc 0 v rfl
            have h2 := ih s (by simpa using hs) (fun j w hw => by simpa using hc (j + 1) w (by simpa using hw))
            unfold get at h2 ⊢
            rw [List.foldr_cons, h2, h1]
            rfl
      exact this m r (by rw [h.1, hrl]) (fun j v hv => (hcol j v hv).2 i r hi)
    · intro i hi
      cases m with
      | nil => have := h.1; simp at this; omega
      | cons v m =>
        have := (hcol 0 v rfl).1
        unfold get
        rw [List.foldr_cons, List.getElem?_eq_none (by omega)]
        rfl
  rcases h0 with rfl | rfl
  · cases rows with
    | nil => exact ⟨[], rfl, rfl, by simp, by simp⟩
    | cons r rows' =>
      have hr0 := hr r List.mem_cons_self
      have e0 : pushBack ([] : MVec α) r = pushBack (ofK k) r := by
        simp only [pushBack, checkSize, ofK, hr0]
        have : k ≠ 0 := by omega
        simp [this]
      obtain ⟨m, e, h⟩ := hpush (r :: rows') (ofK k) [] hof hr
      refine ⟨m, ?_, (hread m h).1, (hread m h).2.1, fun _ => (hread m h).2.2⟩
      rw [List.foldl_cons] at e ⊢
      show List.foldl _ (pushBack [] r) rows' = _
      rw [e0]; exact e
  · obtain ⟨m, e, h⟩ := hpush rows (ofK k) [] hof hr
    exact ⟨m, e, (hread m h).1, (hread m h).2.1, fun _ => (hread m h).2.2⟩

/-- A sequentially filled multivector of `n` rows of `k ≥ 1` entries: entry `j` of row `i` is `i*k+j`. -/
theorem C104_sequential (k n : Nat) (hk : 0 < k) : ∃ m, ofSeq k n = .ok m ∧ m.size = n ∧
    ∀ i, i < n → ∃ r, m.get i = .ok r ∧ r.length = k ∧ ∀ j, j < k → r[j]? = some (i * k + j) := by
  obtain ⟨m, h1, h2, h3, _⟩ := C104_rows k hk ((List.range n).map fun i => (List.range k).map fun j => i * k + j)
    (by intro r hr; obtain ⟨i, _, rfl⟩ := List.mem_map.1 hr; simp) (ofK k) (Or.inr rfl)
  rw [List.foldl_map] at h1
  refine ⟨m, h1, by simpa using h2, fun i hi => ⟨(List.range k).map fun j => i * k + j, h3 i _ (by simp [hi]), by simp, fun j hj => by simp [hj]⟩⟩

/-- A row of the wrong length is refused. -/
theorem C104_wrong_length (m : MVec α) (hm : m ≠ []) {r : List α} (h : r.length ≠ m.length) : m.pushBack r = .throw := by
  unfold pushBack checkSize
  rw [if_neg (fun e => hm (List.eq_nil_of_length_eq_zero e))]
  simp [Res.assrt, Ne.symm h]

/-- **Rows without entries are not counted.** -/
theorem C104_empty_rows : (pushBack ([] : MVec α) [] >>= fun m => pushBack m []) = .ok [] ∧ size ([] : MVec α) = 0 :=
  ⟨rfl, rfl⟩

example : (do let m ← pushBack ([] : MVec Nat) [1, 2]; pushBack m [3, 4]) = .ok [[1, 3], [2, 4]] := by decide
example : ofSeq 2 3 = .ok [[0, 2, 4], [1, 3, 5]] := by decide

end MVec

end Cnine
