import Verif.Lemmas.KnnLoop

/-!
# C24 — native nearest-neighbour output buffers are never overrun
-/

set_option linter.unusedSectionVars false

namespace Implicit

variable {R : Type} [LinearOrder R] [Field R]

/-- **C24** (partial: as long as `item_count * K` does not exceed `2^31`).  Every result slot is inside
the arrays, and different items or positions have different slots. -/
theorem C24_slots_partial (n K : Nat) (hnK : n * K ≤ 2 ^ 31) :
    (∀ i < n, ∀ pos < K, ∃ s, knnSlot n K i pos = .ok s ∧ s < knnAllocated n K) ∧
      ∀ i < n, ∀ pos < K, ∀ i' < n, ∀ pos' < K,
        knnSlot n K i pos = knnSlot n K i' pos' → i = i' ∧ pos = pos' := by
  have halloc : knnAllocated n K = n * K := by
    unfold knnAllocated
    exact Nat.mod_eq_of_lt (by omega)
  refine ⟨fun i hi pos hp => ⟨_, knnSlot_eq hnK hi hp, by rw [halloc]; exact slot_lt hi hp⟩, ?_⟩
  intro i hi pos hp i' hi' pos' hp' h
  rw [knnSlot_eq hnK hi hp, knnSlot_eq hnK hi' hp'] at h
  have h : K * i + pos = K * i' + pos' := by injection h
  rw [Nat.mul_comm K i, Nat.mul_comm K i'] at h
  exact addr_inj hp hp' h

/-- **C24** (partial, same bound).  `all_pairs_knn` finishes without any access outside its arrays, for
every matrix. -/
theorem C24_no_overrun_partial (H : HeapImpl (R × Nat) pairLt) (n K : Nat) (hK : 1 ≤ K)
    (hnK : n * K ≤ 2 ^ 31) (M : SpRows R) (hM : ∀ r ∈ M, ∀ e ∈ r, e.1 < n) :
    ∃ cells, allPairsKnn H n K M = .ok cells ∧ cells.length = n * K := by
  have h := allPairsKnn_eq H hK hnK M hM
  refine ⟨_, h, ?_⟩
  unfold allPairsKnn at h
  cases hl : knnLoop H n K M 0 (transposeRows n M) (Accum.new n) with
  | error e => rw [hl] at h; cases h
  | ok r =>
    rw [hl] at h
    have := writeAll_length h
    rw [this, List.length_replicate]
    unfold knnAllocated
    exact Nat.mod_eq_of_lt (by omega)

/-- **C24 is violated** for large catalogues: with 21.5 million items and `K = 100`, `K * i` does not
fit a 32-bit `int`, so that slot 0 of item 21474837 *is* slot 4 of item 25164. -/
theorem C24_disjoint_violated :
    knnSlot 21500000 100 21474837 0 = .ok 2516404 ∧
      knnSlot 21500000 100 25164 4 = .ok 2516404 := by
  constructor <;> decide +kernel

/-- When `item_count * K` is a multiple of `2^32` the arrays have no cells. -/
theorem knnSlot_overrun {n K : Nat} (h : knnAllocated n K = 0) (i pos : Nat) :
    knnSlot n K i pos = .error .undefinedBehaviour := by
  unfold knnSlot
  simp only [h]
  split_ifs <;> first | rfl | (exfalso; omega)

theorem allPairs_overrun (H : HeapImpl (R × Nat) pairLt) {n K : Nat} (hn : 0 < n) (hK : 1 ≤ K)
    (h0 : knnAllocated n K = 0) (M : SpRows R)
    (hM : ∀ r ∈ M, ∀ e ∈ r, e.1 < n) (hr : Spec.CoRated M 0 0) :
    allPairsKnn H n K M = .error .undefinedBehaviour := by
  have hcol := colOf_get M hn
  obtain ⟨h, e1, hl, hrank, hp⟩ := knnRow_ok H hK M hM _ (colOf_bound M hn)
  have hne : h ≠ [] := by
    rintro rfl
    have hs : H.sort [] = [] := List.Perm.eq_nil hp
    rw [hs] at hrank
    have := hrank.complete (by simp; omega) 0 ((transpose_reachable hcol 0).mpr hr)
    simp at this
  obtain ⟨p, h', rfl⟩ := List.exists_cons_of_ne_nil hne
  have hT : transposeRows n M = colOf n M 0 :: (transposeRows n M).tail := by
    cases hT : transposeRows n M with
    | nil => rw [hT] at hcol; simp at hcol
    | cons a t => rw [hT] at hcol; simp at hcol; rw [hcol, List.tail_cons]
  have hst : knnStores n K 0 (p :: h') = .error .undefinedBehaviour := by
    unfold knnStores
    rw [List.zipIdx_cons, List.mapM_cons, knnSlot_overrun h0]
    rfl
  unfold allPairsKnn
  rw [hT]
  unfold knnLoop
  simp only [e1, bind, Except.bind, hst]

/-- **C24 is violated** (out of bounds): with `2^26` items and `K = 64` (`2^32` slots) the arrays are
allocated with size 0, and the first item that was rated is written outside them: `all_pairs_knn` has
undefined behaviour for every such matrix in which item 0 was rated. -/
theorem C24_overrun_violated (H : HeapImpl (R × Nat) pairLt) (M : SpRows R)
    (hM : ∀ r ∈ M, ∀ e ∈ r, e.1 < 2 ^ 26) (hr : Spec.CoRated M 0 0) :
    allPairsKnn H (2 ^ 26) 64 M = .error .undefinedBehaviour :=
  allPairs_overrun H (by norm_num) (by norm_num) (by unfold knnAllocated; norm_num) M hM hr

/-- Three items, `K = 2`, two users: six slots, one of them unused. -/
example : allPairsKnn (R := Rat) insertionHeap 3 2 [[(0, 1), (1, 2)], [(1, 1)], [(2, 3)]] =
    .ok [(0, 0, 1), (0, 1, 2), (1, 0, 2), (1, 1, 5), (2, 2, 9), (0, 0, 0)] := by
  decide +kernel

/-- The hypotheses of the overrun theorem can be met. -/
example : Spec.CoRated ([[(0, 1)]] : SpRows Rat) 0 0 := ⟨_, List.mem_singleton.mpr rfl, ⟨1, by simp⟩, 1, by simp⟩

end Implicit
