import Verif.Lemmas.Heap
import Verif.Model.Select

namespace Implicit

variable {R : Type} [LinearOrder R]

/-- Loop invariant of the heap code: the heap `h` holds a top-`k` of the candidates `seen`. -/
structure HeapInv (H : HeapImpl (R × Nat) pairLt) (k : Nat) (seen h : List (R × Nat)) : Prop where
  heap : H.IsHeap h
  length : h.length = min k seen.length
  best : ∃ rest, seen.Perm (h ++ rest) ∧ ∀ p ∈ h, ∀ q ∈ rest, q.1 ≤ p.1

theorem HeapInv.nil (H : HeapImpl (R × Nat) pairLt) (k : Nat) : HeapInv H k [] [] :=
  ⟨H.heap_nil, by simp, [], by simp⟩

theorem offer_spec (H : HeapImpl (R × Nat) pairLt) {k : Nat} (hk : 1 ≤ k) {seen h : List (R × Nat)}
    (inv : HeapInv H k seen h) (c : R × Nat) :
    ∃ h', offer H k h c = .ok h' ∧ HeapInv H k (c :: seen) h' := by
  obtain ⟨hh, hl, rest, hp, hb⟩ := inv
  unfold offer
  split_ifs with hlt
  · refine ⟨_, rfl, H.heap_push hh, ?_, rest, ?_, ?_⟩
    · rw [(H.push_perm hh).length_eq]
      simp only [List.length_cons]; omega
    · calc (c :: seen).Perm (c :: (h ++ rest)) := hp.cons _
        _ = (c :: h) ++ rest := rfl
        _ |>.Perm (H.push h c ++ rest) := ((H.push_perm hh).symm).append_right _
    · have hrest : rest = [] := by
        have := hp.length_eq
        simp only [List.length_append] at this
        apply List.length_eq_zero_iff.mp
        omega
      subst hrest; simp
  · match h, hh, hl, hp, hb, hlt with
    | [], hh, hl, hp, hb, hlt => simp at hlt; omega
    | m :: t, hh, hl, hp, hb, hlt =>
      have hmin : ∀ a ∈ m :: t, m.1 ≤ a.1 := by
        intro a ha
        rcases List.mem_cons.mp ha with rfl | ha
        · exact le_refl _
        · exact not_pairLt_fst (H.head_min hh a ha)
      simp only
      split_ifs with hgt
      · refine ⟨_, rfl, H.heap_push (H.heap_pop hh), ?_, m :: rest, ?_, ?_⟩
        · rw [(H.push_perm (H.heap_pop hh)).length_eq, List.length_cons,
            (H.pop_perm hh).length_eq]
          simp only [List.length_cons] at *
          omega
        · have h1 : (H.push (H.pop (m :: t)) c).Perm (c :: t) :=
            (H.push_perm (H.heap_pop hh)).trans ((H.pop_perm hh).cons _)
          have h2 : (c :: seen).Perm (c :: (t ++ m :: rest)) := by
            refine List.Perm.cons _ (hp.trans ?_)
            exact List.perm_middle.symm
          exact h2.trans (by simpa using h1.symm.append_right (m :: rest))
        · intro p hp' q hq
          have h1 : (H.push (H.pop (m :: t)) c).Perm (c :: t) :=
            (H.push_perm (H.heap_pop hh)).trans ((H.pop_perm hh).cons _)
          have hp'' := h1.mem_iff.mp hp'
          have hmp : m.1 ≤ p.1 := by
            rcases List.mem_cons.mp hp'' with rfl | hp2
            · exact hgt.le
            · exact hmin p (List.mem_cons_of_mem _ hp2)
          rcases List.mem_cons.mp hq with rfl | hq
          · exact hmp
          · exact le_trans (hb m (by simp) q hq) hmp
      · refine ⟨_, rfl, hh, ?_, c :: rest, ?_, ?_⟩
        · simp only [List.length_cons] at *; omega
        · exact (hp.cons c).trans List.perm_middle.symm
        · intro p hp' q hq
          rcases List.mem_cons.mp hq with rfl | hq
          · exact le_trans (not_lt.mp hgt) (hmin p hp')
          · exact hb p hp' q hq

theorem offerAll_spec (H : HeapImpl (R × Nat) pairLt) {k : Nat} (hk : 1 ≤ k) :
    ∀ (cs : List (R × Nat)) {seen h : List (R × Nat)}, HeapInv H k seen h →
      ∃ h', offerAll H k h cs = .ok h' ∧ HeapInv H k (cs ++ seen) h'
  | [], seen, h, inv => ⟨h, rfl, inv⟩
  | c :: cs, seen, h, inv => by
    obtain ⟨h1, e1, inv1⟩ := offer_spec H hk inv c
    obtain ⟨h2, e2, inv2⟩ := offerAll_spec H hk cs inv1
    refine ⟨h2, ?_, inv2.heap, ?_, ?_⟩
    · unfold offerAll; rw [e1]; exact e2
    · rw [inv2.length]; simp; congr 1
    · obtain ⟨rest, hp, hb⟩ := inv2.best
      exact ⟨rest, List.perm_middle.symm.trans hp, hb⟩

/-- Offering candidates one by one and sorting yields a top-k of the candidates. -/
theorem offerAll_isTopK (H : HeapImpl (R × Nat) pairLt) {k : Nat} (hk : 1 ≤ k)
    (cs : List (R × Nat)) :
    ∃ h, offerAll H k [] cs = .ok h ∧ Spec.IsTopK k cs (H.sort h) ∧
      (H.sort h).Perm h := by
  obtain ⟨h, e, inv⟩ := offerAll_spec H hk cs (HeapInv.nil H k)
  have hs := H.sort_perm inv.heap
  refine ⟨h, e, ⟨?_, ?_, ?_⟩, hs⟩
  · rw [hs.length_eq, inv.length]; simp
  · obtain ⟨rest, hp, hb⟩ := inv.best
    refine ⟨rest, ?_, ?_⟩
    · simpa using hp.trans (hs.symm.append_right rest)
    · intro p hp'; exact hb p (hs.mem_iff.mp hp')
  · exact (H.sort_sorted inv.heap).imp fun h => not_pairLt_iff.mp h

theorem mem_zipIdx_iff' {α : Type*} {l : List α} {p : α × Nat} :
    p ∈ l.zipIdx ↔ l[p.2]? = some p.1 := by
  obtain ⟨a, i⟩ := p
  exact List.mk_mem_zipIdx_iff_getElem?

theorem nodup_zipIdx_snd {α : Type*} (l : List α) : (l.zipIdx.map Prod.snd).Nodup := by
  have : l.zipIdx.map Prod.snd = List.range l.length := by
    simp [List.range_eq_range']
  rw [this]; exact List.nodup_range

theorem isTopKOf_of_isTopK {k : Nat} {scores : List R} {out : List (R × Nat)}
    (h : Spec.IsTopK k scores.zipIdx out) : Spec.IsTopKOf k scores out := by
  obtain ⟨hl, ⟨rest, hp, hb⟩, hs⟩ := h
  have hnd : ((out ++ rest).map Prod.snd).Nodup :=
    (hp.map Prod.snd).nodup_iff.mp (nodup_zipIdx_snd scores)
  rw [List.map_append] at hnd
  have hnd1 := (List.nodup_append.mp hnd).1
  refine ⟨by simpa using hl, ?_, hnd1, ?_, ?_⟩
  · intro p hp'
    exact mem_zipIdx_iff'.mp (hp.mem_iff.mpr (by simp [hp']))
  · intro p hp' j s hj hnot
    have : (s, j) ∈ out ++ rest := hp.mem_iff.mp (mem_zipIdx_iff'.mpr hj)
    rcases List.mem_append.mp this with h1 | h1
    · exact absurd (List.mem_map_of_mem (f := Prod.snd) h1) hnot
    · exact hb p hp' _ h1
  · have hnd2 : out.Nodup := List.Nodup.of_map _ hnd1
    exact List.Pairwise.imp₂ (fun a b h1 h2 => h1.resolve_left h2) hs hnd2

end Implicit
