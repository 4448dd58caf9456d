import Verif.Lemmas.KnnScorer

/-!
# C26 — item-item recommend does not return items the user already rated
-/

set_option linter.unusedSectionVars false

namespace Implicit

variable {R : Type} [LinearOrder R] [Field R]

/-- **C26** (partial).  If `N` items that the user has not rated have a positive score, no rated item is
returned.  Missing: otherwise, see `C26_liked_violated`. -/
theorem C26_positive_partial (H : HeapImpl (R × Nat) pairLt) (lowest : R) (sim : SpRows R)
    (hsim : SquareRows sim) (row : List (Nat × R)) (hrow : ∀ e ∈ row, e.1 < sim.length)
    (N : Nat) (hN : 1 ≤ N) (l : List Nat) (hnd : l.Nodup) (hl : l.length = N)
    (hpos : ∀ j ∈ l, ¬ Spec.Stored row j ∧ Spec.Reachable sim row j ∧ 0 < Spec.itemScore sim row j) :
    ∃ out, knnRecommendOne H lowest (KnnState.ofSimilarity sim) [row] N true none none =
        (.ok out, KnnState.ofSimilarity sim) ∧ out.length = N ∧
      ∀ j, Spec.Stored row j → (j : Int) ∉ out.map Prod.fst := by
  obtain ⟨out, e, h⟩ := knnRecommendOne_ok H lowest sim hsim row hrow [] N N hN true none none rfl
  have hlike : ∀ j, Spec.Stored row j ↔ j ∈ row.map Prod.fst := by
    intro j; unfold Spec.Stored; simp
  refine ⟨_, e, ?_, ?_⟩
  · show (intRow out).length = N
    unfold intRow
    rw [List.length_map]
    refine le_antisymm h.atMost ?_
    by_contra hlt
    have hsub : l ⊆ out.map Prod.fst := fun j hj => h.complete (by omega) j (hpos j hj).2.1
    have := (hnd.subperm hsub).length_le
    rw [List.length_map] at this
    omega
  · intro j hj hmem
    have hmem' : j ∈ out.map Prod.fst := by
      obtain ⟨q, hq, hqe⟩ := List.mem_map.mp hmem
      obtain ⟨p, hp, rfl⟩ := List.mem_map.mp hq
      have : p.1 = j := Int.ofNat.inj hqe
      exact List.mem_map.mpr ⟨p, hp, this⟩
    obtain ⟨p, hp, hpj⟩ := List.mem_map.mp hmem'
    have hp0 : p.2 = 0 := by
      have := (h.mem p hp).2
      simp only [knnScore, Option.some.injEq] at this
      rw [if_pos ⟨trivial, by rw [hpj]; exact (hlike j).mp hj⟩] at this
      exact this.symm
    have hall : l ⊆ (out.map Prod.fst).erase j := by
      intro i hi
      obtain ⟨h1, h2, h3⟩ := hpos i hi
      have hne : i ≠ j := by rintro rfl; exact h1 hj
      rw [List.mem_erase_of_ne hne]
      by_contra hni
      have hs : knnScore sim row true i = Spec.itemScore sim row i := by
        unfold knnScore
        rw [if_neg]
        rintro ⟨-, hm⟩
        exact h1 ((hlike i).mpr hm)
      have := h.best i _ h2 rfl hni p hp
      rw [hs, hp0] at this
      exact absurd h3 (not_lt.mpr this)
    have := (hnd.subperm hall).length_le
    rw [List.length_erase_of_mem hmem', List.length_map] at this
    have := h.atMost
    omega

/-- A rated item that is returned has score 0. -/
theorem C26_liked_score (H : HeapImpl (R × Nat) pairLt) (lowest : R) (sim : SpRows R)
    (hsim : SquareRows sim) (row : List (Nat × R)) (hrow : ∀ e ∈ row, e.1 < sim.length)
    (N : Nat) (hN : 1 ≤ N) :
    ∃ out, knnRecommendOne H lowest (KnnState.ofSimilarity sim) [row] N true none none =
        (.ok out, KnnState.ofSimilarity sim) ∧
      ∀ p ∈ out, ∀ j : Nat, p.1 = (j : Int) → Spec.Stored row j → p.2 = 0 := by
  obtain ⟨out, e, h⟩ := knnRecommendOne_ok H lowest sim hsim row hrow [] N N hN true none none rfl
  refine ⟨_, e, ?_⟩
  intro p hp j hj hst
  obtain ⟨q, hq, rfl⟩ := List.mem_map.mp (show p ∈ intRow out from hp)
  have hqj : q.1 = j := Int.ofNat.inj hj
  have := (h.mem q hq).2
  simp only [knnScore, Option.some.injEq] at this
  rw [if_pos] at this
  · exact this.symm
  · refine ⟨trivial, ?_⟩
    obtain ⟨v, hv⟩ := hst
    exact List.mem_map.mpr ⟨_, hv, hqj.symm⟩

/-- **C26 is violated**: the code sets the score of rated items to 0 instead of leaving them out.  The
user rated item 0; asking for two recommendations returns item 1 and item 0. -/
theorem C26_liked_violated :
    (knnRecommendOne (R := Rat) insertionHeap (-1000)
      (KnnState.ofSimilarity [[(0, 4), (1, 2)], [(0, 2), (1, 3)]]) [[(0, 1)]] 2 true none none).1 =
      .ok [(1, 2), (0, 0)] := by
  decide +kernel

/-- **C26 is violated** even when enough other items exist: negative ratings or similarities give
unrated items a negative score, below the 0 of the rated item. -/
theorem C26_negative_violated :
    (knnRecommendOne (R := Rat) insertionHeap (-1000)
      (KnnState.ofSimilarity [[(0, 4), (1, -2)], [(0, -2), (1, 3)]]) [[(0, 1)]] 1 true none none).1 =
      .ok [(0, 0)] := by
  decide +kernel

/-- An instance of `C26_positive_partial`: two unrated items with positive scores, `N = 2`. -/
example :
    let sim : SpRows Rat := [[(0, 4), (1, 2), (2, 1)], [(0, 2)], [(0, 1)]]
    (∀ j ∈ [1, 2], 0 < Spec.itemScore sim [(0, 1)] j) ∧
      (knnRecommendOne (R := Rat) insertionHeap (-1000) (KnnState.ofSimilarity sim) [[(0, 1)]] 2 true
        none none).1 = .ok [(1, 2), (2, 1)] := by
  decide +kernel

end Implicit
