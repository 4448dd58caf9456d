import Verif.Lemmas.Select
/-!
# What the heap code returns, exactly

The front of the heap is the smallest pair `(score, id)`, so what is evicted does not depend on how the library arranges the heap.
-/

namespace Implicit

variable {R : Type} [LinearOrder R]

theorem pairLt_antisymm {a b : R × Nat} (h1 : ¬ pairLt a b) (h2 : ¬ pairLt b a) : a = b := by
  rcases pairLt_total a b with h | h | h
  · exact absurd h h1
  · exact h
  · exact absurd h h2

/-- Two heaps with the same elements have the same front. -/
theorem heap_front {H H' : HeapImpl (R × Nat) pairLt} {m m' : R × Nat} {t t' : List (R × Nat)} (hh : H.IsHeap (m :: t))
    (hh' : H'.IsHeap (m' :: t')) (hp : (m' :: t').Perm (m :: t)) : m' = m := by
  have h1 : m ∈ m' :: t' := hp.mem_iff.mpr (by simp)
  have h2 : m' ∈ m :: t := hp.mem_iff.mp (by simp)
  rcases List.mem_cons.mp h1 with h | h
  · exact h.symm
  rcases List.mem_cons.mp h2 with h' | h'
  · exact h'
  exact pairLt_antisymm (H.head_min hh _ h') (H'.head_min hh' _ h)

/-- Replacing the scores by an increasing function of them. -/
def mapScores (g : R → R) (l : List (R × Nat)) : List (R × Nat) := l.map fun p => (g p.1, p.2)

theorem pairLt_mapScores {g : R → R} (hg : StrictMono g) (a b : R × Nat) :
    pairLt (g a.1, a.2) (g b.1, b.2) ↔ pairLt a b := by
  unfold pairLt
  simp only [hg.lt_iff_lt]

/-- The front of a heap whose elements are those of another one with increased scores. -/
theorem heap_front_map {g : R → R} (hg : StrictMono g) {H H' : HeapImpl (R × Nat) pairLt} {m m' : R × Nat}
    {t t' : List (R × Nat)} (hh : H.IsHeap (m :: t)) (hh' : H'.IsHeap (m' :: t'))
    (hp : (m' :: t').Perm (mapScores g (m :: t))) : m' = (g m.1, m.2) := by
  have h1 : (g m.1, m.2) ∈ m' :: t' := hp.mem_iff.mpr (by simp [mapScores])
  have h2 : m' ∈ mapScores g (m :: t) := hp.mem_iff.mp (by simp)
  rcases List.mem_cons.mp h1 with h | h
  · exact h.symm
  obtain ⟨x, hx, rfl⟩ := List.mem_map.mp h2
  rcases List.mem_cons.mp hx with h' | h'
  · rw [h']
  exact pairLt_antisymm (fun hlt => H.head_min hh _ h' ((pairLt_mapScores hg _ _).mp hlt)) (H'.head_min hh' _ h)

/-- The same candidates offered to two heaps, with any increasing change of the scores. -/
theorem offer_map {g : R → R} (hg : StrictMono g) {H H' : HeapImpl (R × Nat) pairLt} {k : Nat} {h h' : List (R × Nat)}
    (hh : H.IsHeap h) (hh' : H'.IsHeap h') (hp : h'.Perm (mapScores g h)) (c : R × Nat) {r : List (R × Nat)}
    (e : offer H k h c = .ok r) :
    H.IsHeap r ∧ ∃ r', offer H' k h' (g c.1, c.2) = .ok r' ∧ H'.IsHeap r' ∧ r'.Perm (mapScores g r) := by
  have hlen : h'.length = h.length := by rw [hp.length_eq]; simp [mapScores]
  unfold offer at e ⊢
  rw [hlen]
  split_ifs at e ⊢ with hlt
  · cases e
    refine ⟨H.heap_push hh, _, rfl, H'.heap_push hh', ?_⟩
    refine (H'.push_perm hh').trans ((hp.cons _).trans ?_)
    exact ((H.push_perm hh).map fun p => (g p.1, p.2)).symm
  · match h, h', hh, hh', hp, e with
    | [], _, _, _, _, e => cases e
    | m :: t, [], _, _, hp, e => simp [mapScores] at hp
    | m :: t, m' :: t', hh, hh', hp, e =>
      have hm := heap_front_map hg hh hh' hp
      subst hm
      have ht : t'.Perm (mapScores g t) := (List.perm_cons _).mp hp
      simp only [hg.lt_iff_lt] at e ⊢
      split_ifs at e ⊢ with hgt
      · cases e
        refine ⟨H.heap_push (H.heap_pop hh), _, rfl, H'.heap_push (H'.heap_pop hh'), ?_⟩
        refine (H'.push_perm (H'.heap_pop hh')).trans ((((H'.pop_perm hh').trans ht).cons _).trans ?_)
        exact (((H.push_perm (H.heap_pop hh)).trans ((H.pop_perm hh).cons c)).map fun p => (g p.1, p.2)).symm
      · cases e
        exact ⟨hh, _, rfl, hh', hp⟩

theorem offerAll_map {g : R → R} (hg : StrictMono g) {H H' : HeapImpl (R × Nat) pairLt} {k : Nat} :
    ∀ (cs : List (R × Nat)) {h h' r : List (R × Nat)}, H.IsHeap h → H'.IsHeap h' → h'.Perm (mapScores g h) →
      offerAll H k h cs = .ok r →
      H.IsHeap r ∧ ∃ r', offerAll H' k h' (mapScores g cs) = .ok r' ∧ H'.IsHeap r' ∧ r'.Perm (mapScores g r)
  | [], h, h', r, hh, hh', hp, e => by cases e; exact ⟨hh, h', rfl, hh', hp⟩
  | c :: cs, h, h', r, hh, hh', hp, e => by
    unfold offerAll at e
    cases e1 : offer H k h c with
    | error x => rw [e1] at e; cases e
    | ok h1 =>
      rw [e1] at e
      obtain ⟨hh1, h1', e1', hh1', hp1⟩ := offer_map hg hh hh' hp c e1
      obtain ⟨hr, r', er, hr', hpr⟩ := offerAll_map hg cs hh1 hh1' hp1 e
      refine ⟨hr, r', ?_, hr', hpr⟩
      show offerAll H' k h' ((g c.1, c.2) :: mapScores g cs) = .ok r'
      unfold offerAll
      rw [e1']
      exact er

/-- A descending list of pairs is determined by its elements. -/
theorem descending_unique {a b : List (R × Nat)} (ha : a.Pairwise fun x y => ¬ pairLt x y)
    (hb : b.Pairwise fun x y => ¬ pairLt x y) (h : a.Perm b) : a = b := by
  refine h.eq_of_pairwise (le := fun x y => ¬ pairLt x y) ?_ ha hb
  intro x y _ _ h1 h2
  exact pairLt_antisymm h1 h2

/-- After sorting, two heaps that were offered the same candidates are equal, up to the change of the scores. -/
theorem offerAll_sort_map {g : R → R} (hg : StrictMono g) (H H' : HeapImpl (R × Nat) pairLt) {k : Nat}
    (cs : List (R × Nat)) {r : List (R × Nat)} (e : offerAll H k [] cs = .ok r) :
    ∃ r', offerAll H' k [] (mapScores g cs) = .ok r' ∧ H'.sort r' = mapScores g (H.sort r) := by
  obtain ⟨hr, r', e', hr', hp⟩ := offerAll_map hg cs H.heap_nil H'.heap_nil (by simp [mapScores]) e
  refine ⟨r', e', descending_unique (H'.sort_sorted hr') ?_ ?_⟩
  · unfold mapScores
    rw [List.pairwise_map]
    exact (H.sort_sorted hr).imp fun h h' => h ((pairLt_mapScores hg _ _).mp h')
  · exact (H'.sort_perm hr').trans (hp.trans ((H.sort_perm hr).map _).symm)

/-- Room for more results: nothing is lost. -/
theorem offer_nested {H H' : HeapImpl (R × Nat) pairLt} {k k' : Nat} (hkk : k ≤ k') {seen h h' : List (R × Nat)}
    (inv : HeapInv H k seen h) (inv' : HeapInv H' k' seen h') (hnd : seen.Nodup) (hsub : h ⊆ h') (c : R × Nat)
    {r r' : List (R × Nat)} (e : offer H k h c = .ok r) (e' : offer H' k' h' c = .ok r') : r ⊆ r' := by
  have nd : h.Nodup := by
    obtain ⟨rest, hp, -⟩ := inv.best
    exact (List.nodup_append.mp (hp.nodup_iff.mp hnd)).1
  have nd' : h'.Nodup := by
    obtain ⟨rest, hp, -⟩ := inv'.best
    exact (List.nodup_append.mp (hp.nodup_iff.mp hnd)).1
  have hl := inv.length
  have hl' := inv'.length
  have hh := inv.heap
  have hh' := inv'.heap
  unfold offer at e e'
  by_cases hlt' : h'.length < k'
  · rw [if_pos hlt'] at e'
    cases e'
    have key : c :: h ⊆ H'.push h' c := fun x hx => (H'.push_perm hh').mem_iff.mpr (by
      rcases List.mem_cons.mp hx with rfl | hx
      · simp
      · simp [hsub hx])
    split_ifs at e with hlt
    · cases e
      exact fun x hx => key ((H.push_perm hh).mem_iff.mp hx)
    · match h, hh, e with
      | [], _, e => cases e
      | m :: t, hh, e =>
        simp only at e
        split_ifs at e
        · cases e
          intro x hx
          have := ((H.push_perm (H.heap_pop hh)).trans ((H.pop_perm hh).cons c)).mem_iff.mp hx
          refine key ?_
          rcases List.mem_cons.mp this with rfl | h
          · simp
          · simp [h]
        · cases e
          exact fun x hx => key (List.mem_cons_of_mem _ hx)
  · rw [if_neg hlt'] at e'
    rw [if_neg (by omega)] at e
    match h, h', hh, hh', e, e' with
    | [], _, _, _, e, _ => cases e
    | _ :: _, [], _, _, _, e' => cases e'
    | m :: t, m' :: t', hh, hh', e, e' =>
      have hmm : m'.1 ≤ m.1 := by
        rcases List.mem_cons.mp (hsub (show m ∈ m :: t by simp)) with h | h
        · rw [h]
        · exact not_pairLt_fst (H'.head_min hh' _ h)
      have hmin : ∀ x ∈ m :: t, m.1 ≤ x.1 := by
        intro x hx
        rcases List.mem_cons.mp hx with rfl | hx
        · exact le_refl _
        · exact not_pairLt_fst (H.head_min hh _ hx)
      simp only at e e'
      split_ifs at e with h1
      · rw [if_pos (lt_of_le_of_lt hmm h1)] at e'
        cases e; cases e'
        intro x hx
        have hx := ((H.push_perm (H.heap_pop hh)).trans ((H.pop_perm hh).cons c)).mem_iff.mp hx
        refine ((H'.push_perm (H'.heap_pop hh')).trans ((H'.pop_perm hh').cons c)).mem_iff.mpr ?_
        rcases List.mem_cons.mp hx with rfl | hx
        · simp
        · refine List.mem_cons_of_mem _ ?_
          rcases List.mem_cons.mp (hsub (List.mem_cons_of_mem _ hx)) with h | h
          · exfalso
            have hne : m ≠ x := fun he => (List.nodup_cons.mp nd).1 (he ▸ hx)
            rcases List.mem_cons.mp (hsub (show m ∈ m :: t by simp)) with h2 | h2
            · exact hne (h2.trans h.symm)
            · exact hne (pairLt_antisymm (h ▸ H'.head_min hh' _ h2) (H.head_min hh _ hx))
          · exact h
      · cases e
        split_ifs at e' with h2
        · cases e'
          intro x hx
          refine ((H'.push_perm (H'.heap_pop hh')).trans ((H'.pop_perm hh').cons c)).mem_iff.mpr ?_
          rcases List.mem_cons.mp (hsub hx) with h | h
          · exfalso
            have := hmin x hx
            rw [h] at this
            exact absurd (lt_of_lt_of_le h2 (not_lt.mp h1)) (not_lt.mpr this)
          · exact List.mem_cons_of_mem _ h
        · cases e'
          exact hsub

theorem offerAll_nested {H H' : HeapImpl (R × Nat) pairLt} {k k' : Nat} (hk : 1 ≤ k) (hkk : k ≤ k') :
    ∀ (cs : List (R × Nat)) {seen h h' r r' : List (R × Nat)}, HeapInv H k seen h → HeapInv H' k' seen h' →
      (cs ++ seen).Nodup → h ⊆ h' → offerAll H k h cs = .ok r → offerAll H' k' h' cs = .ok r' → r ⊆ r'
  | [], seen, h, h', r, r', _, _, _, hsub, e, e' => by cases e; cases e'; exact hsub
  | c :: cs, seen, h, h', r, r', inv, inv', hnd, hsub, e, e' => by
    obtain ⟨h1, e1, inv1⟩ := offer_spec H hk inv c
    obtain ⟨h1', e1', inv1'⟩ := offer_spec H' (le_trans hk hkk) inv' c
    unfold offerAll at e e'
    rw [e1] at e
    rw [e1'] at e'
    refine offerAll_nested hk hkk cs inv1 inv1' ?_
      (offer_nested hkk inv inv' ((List.nodup_append.mp hnd).2.1) hsub c e1 e1') e e'
    exact (List.perm_middle (a := c) (l₁ := cs) (l₂ := seen)).nodup_iff.mpr hnd

end Implicit
