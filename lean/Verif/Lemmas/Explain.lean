import Verif.Model.ALSState
import Verif.Lemmas.Heap
import Verif.Lemmas.Solver

set_option linter.unusedSectionVars false

namespace Implicit

section heap
variable {R : Type} [LinearOrder R]

/-- `heappushpop` keeps the `N` best of what it has seen. -/
theorem keepLargest_fold (H : HeapImpl (R × Nat) pairLt) (N : Nat) : ∀ (cs h rest seen : List (R × Nat)),
    H.IsHeap h → h.length = min N seen.length → seen.Perm (h ++ rest) →
    (∀ p ∈ h, ∀ q ∈ rest, ¬ pairLt p q) →
    H.IsHeap (cs.foldl (keepLargest H N) h) ∧
      (cs.foldl (keepLargest H N) h).length = min N (seen ++ cs).length ∧
      ∃ rest', (seen ++ cs).Perm (cs.foldl (keepLargest H N) h ++ rest') ∧
        ∀ p ∈ cs.foldl (keepLargest H N) h, ∀ q ∈ rest', ¬ pairLt p q
  | [], h, rest, seen, hh, hl, hp, hb => ⟨hh, by simpa using hl, rest, by simpa using hp, hb⟩
  | c :: cs, h, rest, seen, hh, hl, hp, hb => by
    have hpush := H.heap_push (x := c) hh
    have hperm := H.push_perm (x := c) hh
    have hplen : (H.push h c).length = h.length + 1 := by simpa using hperm.length_eq
    rw [List.foldl_cons]
    have e : seen ++ c :: cs = (seen ++ [c]) ++ cs := by simp
    rw [e]
    by_cases hN : h.length < N
    · have hk : keepLargest H N h c = H.push h c := by unfold keepLargest; rw [if_pos hN]
      rw [hk]
      -- nothing was dropped so far
      have hrest : rest = [] := by
        have := hp.length_eq
        rw [List.length_append] at this
        have : rest.length = 0 := by omega
        exact List.length_eq_zero_iff.mp this
      subst hrest
      refine keepLargest_fold H N cs (H.push h c) [] (seen ++ [c]) hpush ?_ ?_ (by simp)
      · have := hp.length_eq
        simp at this
        simp only [List.length_append, List.length_singleton, hplen]; omega
      · rw [List.append_nil] at hp ⊢
        exact ((hp.append_right [c]).trans (List.perm_append_singleton c h)).trans hperm.symm
    · have hk : keepLargest H N h c = H.pop (H.push h c) := by unfold keepLargest; rw [if_neg hN]
      rw [hk]
      rcases hm : H.push h c with _ | ⟨m, t⟩
      · rw [hm] at hplen; simp at hplen
      rw [hm] at hpush hperm hplen
      have hpop := H.pop_perm hpush
      have hmin := H.head_min hpush
      refine keepLargest_fold H N cs (H.pop (m :: t)) (m :: rest) (seen ++ [c]) (H.heap_pop hpush)
        ?_ ?_ ?_
      · have h1 := hpop.length_eq
        simp only [List.length_cons] at hplen
        simp only [List.length_append, List.length_singleton]
        omega
      · have h1 : (seen ++ [c]).Perm (c :: (h ++ rest)) :=
          (List.perm_append_singleton c seen).trans (hp.cons c)
        have h2 : (c :: (h ++ rest)).Perm ((m :: t) ++ rest) := by
          have := hperm.symm.append_right rest
          simpa using this
        have h3 : ((m :: t) ++ rest).Perm (t ++ m :: rest) := by
          rw [List.cons_append]; exact List.perm_middle.symm
        exact (h1.trans (h2.trans h3)).trans (hpop.symm.append_right _)
      · intro p hp' q hq hlt
        have hpt : p ∈ t := hpop.mem_iff.mp hp'
        rcases List.mem_cons.mp hq with rfl | hq
        · exact hmin p hpt hlt
        · -- `p` is `c` or from `h`
          rcases List.mem_cons.mp (hperm.mem_iff.mp (List.mem_cons_of_mem m hpt)) with rfl | hph
          · -- `m` came from `h`
            rcases List.mem_cons.mp (hperm.mem_iff.mp (List.mem_cons_self (a := m) (l := t))) with
              e' | hmh
            · -- `m = p`: the copy of `p` in `t` came from `h`
              rw [e'] at hperm
              exact hb p (hperm.cons_inv.mem_iff.mp hpt) q hq hlt
            · have hnm := hb m hmh q hq
              have hpm : ¬ pairLt p m := hmin p hpt
              rcases pairLt_total m p with x | x | x
              · exact hnm (pairLt_trans x hlt)
              · exact hnm (x ▸ hlt)
              · exact hpm x
          · exact hb p hph q hq hlt

/-- Popping everything yields the elements in ascending order. -/
theorem drainHeap_spec (H : HeapImpl (R × Nat) pairLt) : ∀ (n : Nat) (h : List (R × Nat)),
    H.IsHeap h → h.length = n →
    (drainHeap H n h).Perm h ∧ (drainHeap H n h).Pairwise (fun a b => ¬ pairLt b a)
  | 0, h, _, hl => by
    have := List.length_eq_zero_iff.mp hl
    subst this
    exact ⟨.refl _, .nil⟩
  | n + 1, [], _, hl => by simp at hl
  | n + 1, m :: t, hh, hl => by
    have hp := H.pop_perm hh
    obtain ⟨h1, h2⟩ := drainHeap_spec H n (H.pop (m :: t)) (H.heap_pop hh) (by
      rw [hp.length_eq]; simpa using hl)
    refine ⟨(h1.trans hp).cons m, List.pairwise_cons.mpr ⟨?_, h2⟩⟩
    intro b hb
    exact H.head_min hh b ((h1.trans hp).mem_iff.mp hb)

/-- The contribution loop returns the `N` best, best first. -/
theorem keepLargest_isTopK (H : HeapImpl (R × Nat) pairLt) (N : Nat) (cs : List (R × Nat)) :
    Spec.IsTopK N cs
      (drainHeap H (cs.foldl (keepLargest H N) []).length (cs.foldl (keepLargest H N) [])).reverse := by
  obtain ⟨hh, hl, rest, hp, hb⟩ := keepLargest_fold H N cs [] [] [] H.heap_nil (by simp) (by simp)
    (by simp)
  obtain ⟨d1, d2⟩ := drainHeap_spec H _ _ hh rfl
  rw [List.nil_append] at hl hp
  have d3 := (List.reverse_perm _).trans d1
  refine ⟨?_, ⟨rest, hp.trans (d3.symm.append_right _), ?_⟩, ?_⟩
  · rw [d3.length_eq, hl]
  · intro p hp' q hq
    exact not_pairLt_fst (hb p (d3.mem_iff.mp hp') q hq)
  · rw [List.pairwise_reverse]
    exact d2.imp fun h => not_pairLt_iff.mp h

end heap

section
variable {R : Type} [LinearOrder R] [Field R] {f : Nat}

theorem explainScores_eq (w : Vec f R) (Y : List (Vec f R)) (row : List (Nat × R))
    (h : ∀ e ∈ row, e.1 < Y.length) :
    explainScores w Y row = .ok (Spec.contributions Y row w) := by
  induction row with
  | nil => rfl
  | cons e row ih =>
    obtain ⟨i, c⟩ := e
    have hi : i < Y.length := h (i, c) (by simp)
    have ih := ih fun e he => h e (List.mem_cons_of_mem _ he)
    unfold explainScores
    unfold Spec.contributions at ih ⊢
    by_cases hc : c < 0
    · rw [if_pos hc, ih, List.filter_cons_of_neg (by simpa using hc)]
    · rw [if_neg hc, List.getElem?_eq_getElem hi, ih,
        List.filter_cons_of_pos (by simpa using hc)]
      simp only [List.map_cons, List.getElem?_eq_getElem hi]
      rfl

/-- The scores of the contributions add up to the inner product with the right hand side. -/
theorem contributions_sum (w : Vec f R) (Y : List (Vec f R)) (row : List (Nat × R)) (G : Mat f R)
    (reg : R) :
    ((Spec.contributions Y row w).map Prod.fst).sum =
      dot w (linearEquation G reg (row.map fun e => (Y[e.1]?.getD 0, e.2))).2 := by
  rw [dot_linearEquation_snd]
  unfold Spec.contributions
  induction row with
  | nil => rfl
  | cons e row ih =>
    obtain ⟨i, c⟩ := e
    by_cases hc : 0 ≤ c
    · rw [List.filter_cons_of_pos (by simpa using hc)]
      simp only [List.map_cons, List.sum_cons, ih]
      congr 1
      show dot w (Y[i]?.getD 0) * c = _
      rw [dot_comm w, mul_comm]
      rcases hc.lt_or_eq with h0 | h0
      · simp [gain, h0]
      · subst h0; simp [gain]
    · rw [List.filter_cons_of_neg (by simpa using hc)]
      simp only [List.map_cons, List.sum_cons, ih]
      simp [gain, not_lt.mpr (le_of_lt (not_le.mp hc))]

end

end Implicit
