import Verif.Lemmas.KnnScorer

/-!
# C28 — item-item recommend with items=S ranks all of S
-/

set_option linter.unusedSectionVars false

namespace Implicit

variable {R : Type} [LinearOrder R] [Field R]

/-- **C28**.  For a non-empty list `S` of different valid ids: the answer lists exactly the members of
`S`; first those that have a score (stored neighbours of the rated items) with their exact scores in
decreasing order, then the others with the lowest value. -/
theorem C28_items (H : HeapImpl (R × Nat) pairLt) (lowest : R) (sim : SpRows R)
    (hsim : SquareRows sim) (row : List (Nat × R)) (hrow : ∀ e ∈ row, e.1 < sim.length)
    (N : Nat) (S : List Int) (hne : S ≠ []) (hnd : S.Nodup)
    (hS : ∀ i ∈ S, 0 ≤ i ∧ i < (sim.length : Int)) :
    ∃ (scored : List (Nat × R)) (missing : List Int), knnRecommendOne H lowest (KnnState.ofSimilarity sim) [row] N false none (some S) =
        (.ok (intRow scored ++ missing.map fun i => (i, lowest)), KnnState.ofSimilarity sim) ∧
      ((intRow scored ++ missing.map fun i => (i, lowest)).map Prod.fst).Perm S ∧
      Spec.IsRanking sim.length (fun j => Spec.Reachable sim row j ∧ (j : Int) ∈ S)
        (fun j => some (Spec.itemScore sim row j)) scored ∧
      (∀ j : Nat, Spec.Reachable sim row j → (j : Int) ∈ S → j ∈ scored.map Prod.fst) ∧
      ∀ i ∈ missing, ∃ j : Nat, i = (j : Int) ∧ ¬ Spec.Reachable sim row j := by
  have hn : 1 ≤ sim.length := by
    obtain ⟨i, S', rfl⟩ := List.exists_cons_of_ne_nil hne
    have := hS i (by simp)
    omega
  have hplan : knnPlan sim.length N none (some S) = .ok sim.length := by
    unfold knnPlan
    simp only
    rw [if_neg (by simpa using hne), if_neg]
    rw [List.any_eq_true]
    rintro ⟨i, hi, h⟩
    have := hS i hi
    simp at h
    omega
  obtain ⟨out, e, h⟩ := knnRecommendOne_ok H lowest sim hsim row hrow [] N sim.length hn false none
    (some S) hplan
  have h' : Spec.IsRanking sim.length (Spec.Reachable sim row)
      (fun j => some (Spec.itemScore sim row j)) out := h.congrScore fun j _ => by simp [knnScore]
  have hall := h'.all fun i hi => reachable_lt hsim hi
  have hres := h'.restrict (P := fun j => (j : Int) ∈ S) hall
  set scored := out.filter fun p => decide ((p.1 : Int) ∈ S) with hsc
  have hkept : ((intRow out).filter fun p => S.contains p.1) = intRow scored := by
    unfold intRow
    rw [List.filter_map, hsc]
    congr 1
    refine List.filter_congr fun p _ => ?_
    simp only [Function.comp_apply]
    rw [Bool.eq_iff_iff, List.contains_iff_mem]; simp
  have hin : ∀ j : Nat, j ∈ scored.map Prod.fst ↔ Spec.Reachable sim row j ∧ (j : Int) ∈ S := by
    intro j
    constructor
    · intro hj
      obtain ⟨p, hp, rfl⟩ := List.mem_map.mp hj
      exact (hres.mem p hp).1
    · rintro ⟨h1, h2⟩
      obtain ⟨p, hp, rfl⟩ := List.mem_map.mp (hall j h1)
      exact List.mem_map.mpr ⟨p, List.mem_filter.mpr ⟨hp, by simpa using h2⟩, rfl⟩
  have hids : (intRow scored).map Prod.fst = (scored.map Prod.fst).map Int.ofNat := by
    unfold intRow; rw [List.map_map, List.map_map]; rfl
  refine ⟨scored, S.filter fun i => !((intRow scored).map Prod.fst).contains i, ?_, ?_, hres,
    fun j h1 h2 => (hin j).mpr ⟨h1, h2⟩, ?_⟩
  · rw [e]
    unfold knnPost
    simp only [hkept]
  · rw [List.map_append, List.map_map]
    have : ((Prod.fst : Int × R → Int) ∘ fun i => (i, lowest)) = id := rfl
    rw [this, List.map_id]
    refine (List.perm_ext_iff_of_nodup ?_ hnd).mpr ?_
    · refine List.nodup_append.mpr ⟨?_, hnd.filter _, ?_⟩
      · rw [hids]
        exact hres.distinct.map (fun a b hab => Int.ofNat.inj hab)
      · rintro a ha b hb rfl
        have := (List.mem_filter.mp hb).2
        simp only [Bool.not_eq_true', ← Bool.not_eq_true, List.contains_iff_mem] at this
        exact this ha
    · intro i
      rw [List.mem_append]
      constructor
      · rintro (hi | hi)
        · rw [hids] at hi
          obtain ⟨j, hj, rfl⟩ := List.mem_map.mp hi
          exact ((hin j).mp hj).2
        · exact (List.mem_filter.mp hi).1
      · intro hi
        by_cases hc : i ∈ (intRow scored).map Prod.fst
        · exact Or.inl hc
        · refine Or.inr (List.mem_filter.mpr ⟨hi, ?_⟩)
          simp only [Bool.not_eq_true', ← Bool.not_eq_true, List.contains_iff_mem]
          exact hc
  · intro i hi
    obtain ⟨h1, h2⟩ := List.mem_filter.mp hi
    have h0 := (hS i h1).1
    refine ⟨i.toNat, (Int.toNat_of_nonneg h0).symm, fun hr => ?_⟩
    simp only [Bool.not_eq_true', ← Bool.not_eq_true, List.contains_iff_mem] at h2
    apply h2
    rw [hids]
    refine List.mem_map.mpr ⟨i.toNat, (hin _).mpr ⟨hr, ?_⟩, ?_⟩
    · rwa [Int.toNat_of_nonneg h0]
    · exact Int.toNat_of_nonneg h0

/-- **C28** (errors).  An id outside the model raises `IndexError`; `items` together with `filter_items`
raises `ValueError`; so does an empty list of items (`items.max()`).  The model is unchanged. -/
theorem C28_errors (H : HeapImpl (R × Nat) pairLt) (lowest : R) (st : KnnState R) (rows : SpRows R)
    (N : Nat) (liked : Bool) :
    (∀ S : List Int, (∃ i ∈ S, i < 0 ∨ (st.similarity.length : Int) ≤ i) →
      knnRecommendOne H lowest st rows N liked none (some S) = (.error .indexError, st)) ∧
    (∀ F S : List Int,
      knnRecommendOne H lowest st rows N liked (some F) (some S) = (.error .valueError, st)) ∧
    knnRecommendOne H lowest st rows N liked none (some []) = (.error .valueError, st) := by
  refine ⟨?_, fun F S => rfl, rfl⟩
  rintro S ⟨i, hi, h⟩
  have hne : S.isEmpty = false := by
    cases S with
    | nil => simp at hi
    | cons a S => rfl
  have hany : S.any (fun i => decide ((st.similarity.length : Int) ≤ i) || decide (i < 0)) = true := by
    rw [List.any_eq_true]
    refine ⟨i, hi, ?_⟩
    rcases h with h | h <;> simp [h]
  unfold knnRecommendOne knnPlan
  simp only [hne, hany, Bool.false_eq_true, if_false, if_true]

/-- **C28** (`rank_items`, one user) is the same query. -/
theorem C28_rank_items (H : HeapImpl (R × Nat) pairLt) (lowest lowest32 : R) (sim : SpRows R)
    (hsim : SquareRows sim) (u : Nat) (row : List (Nat × R)) (hrow : ∀ e ∈ row, e.1 < sim.length)
    (S : List Int) (hne : S ≠ []) (hnd : S.Nodup) (hS : ∀ i ∈ S, 0 ≤ i ∧ i < (sim.length : Int)) :
    ∃ out, knnRankItems H lowest lowest32 (KnnState.ofSimilarity sim) (.one u) true [row] S =
        (.ok (.one out), KnnState.ofSimilarity sim) ∧ (out.map Prod.fst).Perm S := by
  obtain ⟨scored, missing, e, hp, -⟩ := C28_items H lowest sim hsim row hrow 10 S hne hnd hS
  refine ⟨_, ?_, hp⟩
  unfold knnRankItems knnRecommend
  simp only [Bool.not_true, Bool.false_eq_true, if_false, e]

/-- **C28 is violated** for a batch: the rows are cut to `N` columns, which `rank_items` leaves at its
default 10, so ranking 11 items for a list of users drops one of them. -/
theorem C28_batch_violated :
    ∀ out, (knnRankItems (R := Rat) insertionHeap (-1000) (-100)
        (KnnState.ofSimilarity (List.replicate 11 [])) (.many [0]) true [[(0, 1)]]
        [0, 1, 2, 3, 4, 5, 6, 7, 8, 9, 10]).1 = .ok (.many [out]) →
      out.length = 10 ∧ (10 : Int) ∉ out.map Prod.fst := by
  have : (knnRankItems (R := Rat) insertionHeap (-1000) (-100)
        (KnnState.ofSimilarity (List.replicate 11 [])) (.many [0]) true [[(0, 1)]]
        [0, 1, 2, 3, 4, 5, 6, 7, 8, 9, 10]).1 =
      .ok (.many [[(0, -1000), (1, -1000), (2, -1000), (3, -1000), (4, -1000), (5, -1000), (6, -1000),
        (7, -1000), (8, -1000), (9, -1000)]]) := by decide +kernel
  intro out h
  rw [this] at h
  cases h
  decide

/-- **C28 is violated** when `S` has repetitions: a missing item is returned as often as it was given,
an item with a score only once. -/
theorem C28_repeats_violated :
    (knnRecommendOne (R := Rat) insertionHeap (-1000)
      (KnnState.ofSimilarity [[(0, 4), (1, 2)], [(0, 2), (1, 3)], []]) [[(0, 1)]] 10 false none
      (some [2, 1, 2, 1])).1 = .ok [(1, 2), (2, -1000), (2, -1000)] := by
  decide +kernel

/-- Two scored items and one without score. -/
example :
    (knnRecommendOne (R := Rat) insertionHeap (-1000)
      (KnnState.ofSimilarity [[(0, 4), (1, 2)], [(0, 2), (1, 3)], []]) [[(0, 1)]] 10 false none
      (some [2, 1, 0])).1 = .ok [(0, 4), (1, 2), (2, -1000)] := by
  decide +kernel

end Implicit
