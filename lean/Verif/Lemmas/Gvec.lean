import Verif.Lemmas.Index

namespace Cnine

theorem exceptLoop_eq {α} (N : Nat) (is : List Nat) (x : List α) (last : Nat)
    (hN : last + x.length = N) (hs : is.Pairwise (· < ·)) (hge : ∀ i ∈ is, last ≤ i) (hlt : ∀ i ∈ is, i < N) :
    exceptLoop N is x last
      = .ok (((x.zipIdx last).filter fun p => !is.contains p.2).map Prod.fst) := by
  induction is generalizing x last with
  | nil => simp [exceptLoop, List.filter_true, List.zipIdx_map_fst]
  | cons i is ih =>
    have hi := hlt i (by simp)
    have hli := hge i (by simp)
    rw [List.pairwise_cons] at hs
    have hx : x = x.take (i - last) ++ x.drop (i - last) := (List.take_append_drop _ _).symm
    have hlen1 : (x.take (i - last)).length = i - last := by simp; omega
    have hdl : i - last < x.length := by omega
    have hdrop : x.drop (i - last) = x[i - last] :: x.drop (i - last + 1) := List.drop_eq_getElem_cons hdl
    have hrec := ih (x.drop (i - last + 1)) (i + 1) (by simp; omega) hs.2
      (fun j hj => hs.1 j hj) (fun j hj => hlt j (by simp [hj]))
    rw [exceptLoop]
    simp only [hi, not_true_eq_false, if_false, Nat.not_lt.2 hli, hrec, Res.ok_bind]
    congr 1
    conv => rhs; rw [hx, hdrop, List.zipIdx_append, hlen1]
    rw [List.filter_append, List.map_append]
    congr 1
    · have : ((x.take (i - last)).zipIdx last).filter (fun p => !(i :: is).contains p.2)
          = (x.take (i - last)).zipIdx last := by
        rw [List.filter_eq_self]
        rintro ⟨a, n⟩ hp
        have := List.mem_zipIdx hp
        rw [hlen1] at this
        simp only [Bool.not_eq_true', List.contains_eq_mem, decide_eq_false_iff_not]
        intro hm
        rcases List.mem_cons.1 hm with rfl | hm
        · omega
        · have := hs.1 n hm
          omega
      rw [this, List.zipIdx_map_fst]
    · rw [List.zipIdx_cons, List.filter_cons_of_neg (by simp; omega)]
      have hidx : last + (i - last) + 1 = i + 1 := by omega
      rw [hidx]
      congr 1
      apply List.filter_congr
      rintro ⟨a, n⟩ hp
      have := (List.mem_zipIdx hp).1
      simp only [List.contains_cons]
      have hne : (n == i) = false := by simp; omega
      simp [hne]

theorem gvPermute_ok {α} (l : List α) (p : List Nat) (d : α) (hl : p.length = l.length)
    (hp : ∀ j ∈ p, j < l.length) : gvPermute l p = .ok (p.map fun j => l[j]?.getD d) := by
  simp only [gvPermute, hl, decide_true, Res.assrt_true, Res.ok_bind]
  rw [foldr_seq]
  intro j hj
  simp [Res.get, List.getElem?_eq_getElem (hp j hj)]

theorem mem_zip_getElem {α β} {a : List α} {b : List β} {x : α × β} (h : x ∈ a.zip b) :
    ∃ k, ∃ (h1 : k < a.length) (h2 : k < b.length), a[k] = x.1 ∧ b[k] = x.2 := by
  obtain ⟨k, hk, rfl⟩ := List.mem_iff_getElem.1 h
  rw [List.length_zip] at hk
  exact ⟨k, by omega, by omega, by simp, by simp⟩

theorem mem_zip_of_getElem {α β} {a : List α} {b : List β} {k : Nat} (h1 : k < a.length) (h2 : k < b.length) :
    (a[k], b[k]) ∈ a.zip b := by
  have hk : k < (a.zip b).length := by rw [List.length_zip]; omega
  have := List.getElem_mem hk
  simpa using this

end Cnine
