import Verif.Lemmas.KnnLoop

/-!
# C23 — all_pairs_knn keeps for every item its K most similar items with exact scores

`n * K ≤ 2^31` excludes the overflow of C24.  Schedule independence is `C15_all_pairs`.
-/

set_option linter.unusedSectionVars false

namespace Implicit

variable {R : Type} [LinearOrder R] [Field R]

/-- Fewer than `K` items have a user in common with item `i`. -/
def Spec.Few (M : SpRows R) (K i : Nat) : Prop :=
  ∀ l : List Nat, l.Nodup → (∀ j ∈ l, Spec.CoRated M i j) → l.length < K

/-- The complete description of the similarity matrix. -/
theorem knnFit_rows (H : HeapImpl (R × Nat) pairLt) (n K : Nat) (hK : 1 ≤ K)
    (hnK : n * K ≤ 2 ^ 31) (M : SpRows R) (hM : ∀ r ∈ M, ∀ e ∈ r, e.1 < n) :
    ∃ sim, knnFit H n K M false = .ok sim ∧ sim.length = n ∧
      ∀ i < n, ∃ row out, sim[i]? = some row ∧ (row.map Prod.fst).Pairwise (· < ·) ∧
        Spec.IsRanking K (Spec.CoRated M i) (fun j => some (Spec.similarity M i j)) out ∧
        ∀ p, p ∈ row ↔ p ∈ out ∨
          (i = 0 ∧ p = (0, 0) ∧ 0 ∉ out.map Prod.fst ∧ ∃ i' < n, Spec.Few M K i') := by
  set g : Nat → List (R × Nat) := fun i => knnHeap H n K M (colOf n M i) with hgdef
  have hg : ∀ i < n, Spec.IsRanking K (Spec.CoRated M i) (fun j => some (Spec.similarity M i j))
      ((H.sort (g i)).map Prod.swap) ∧ (H.sort (g i)).Perm (g i) := by
    intro i hi
    obtain ⟨h, e1, hl, hrank, hp⟩ := knnRow_ok H hK M hM _ (colOf_bound M hi)
    have hh : g i = h := by rw [hgdef]; unfold knnHeap; simp only [e1]
    rw [hh]
    refine ⟨?_, hp⟩
    have hcol := colOf_get M hi
    have e2 : Spec.Reachable M (colOf n M i) = Spec.CoRated M i :=
      funext fun j => propext (transpose_reachable hcol j)
    have e3 : (fun j => some (Spec.itemScore M (colOf n M i) j)) =
        fun j => some (Spec.similarity M i j) := funext fun j => by rw [transpose_score hcol]
    rw [← e2, ← e3]; exact hrank
  have hfst : ∀ l : List (R × Nat), (l.map Prod.swap).map Prod.fst = l.map Prod.snd := fun l => by
    rw [List.map_map]; rfl
  have hfew : ∀ i < n, ((g i).length < K ↔ Spec.Few M K i) := by
    intro i hi
    obtain ⟨hrank, hp⟩ := hg i hi
    constructor
    · intro hlt l hnd hl
      have hsub : l ⊆ (H.sort (g i)).map Prod.snd := by
        intro j hj
        have := hrank.complete (by rw [List.length_map, hp.length_eq]; exact hlt) j (hl j hj)
        rwa [hfst] at this
      have := (hnd.subperm hsub).length_le
      rw [List.length_map, hp.length_eq] at this
      omega
    · intro hf
      have := hf ((H.sort (g i)).map Prod.snd) (by rw [← hfst]; exact hrank.distinct) (by
        intro j hj
        rw [← hfst] at hj
        obtain ⟨p, hp', rfl⟩ := List.mem_map.mp hj
        exact (hrank.mem p hp').1)
      rwa [List.length_map, hp.length_eq] at this
  refine ⟨_, by unfold knnFit; rw [allPairsKnn_eq H hK hnK M hM]; rfl, by simp [cooToCsr], ?_⟩
  intro i hi
  obtain ⟨hrank, hp⟩ := hg i hi
  refine ⟨_, (H.sort (g i)).map Prod.swap, by
    unfold cooToCsr
    rw [List.getElem?_map, List.getElem?_range hi]
    rfl, coalesce_sorted _, hrank, ?_⟩
  rintro ⟨c, v⟩
  have hnd : ((g i).map Prod.snd).Nodup := by
    have := hrank.distinct
    rw [hfst] at this
    exact (hp.map _).nodup_iff.mp this
  refine (mem_knn_row hi g hnd c v).trans ?_
  rw [hfst]
  have h1 : (v, c) ∈ g i ↔ (c, v) ∈ (H.sort (g i)).map Prod.swap := by
    rw [← hp.mem_iff]
    constructor
    · intro h; exact List.mem_map.mpr ⟨_, h, rfl⟩
    · intro h
      obtain ⟨x, hx, he⟩ := List.mem_map.mp h
      have : x = (v, c) := by rw [← Prod.swap_swap x, he]; rfl
      rwa [← this]
  rw [h1]
  refine or_congr Iff.rfl ?_
  constructor
  · rintro ⟨rfl, rfl, rfl, h0, i', hi', hlt⟩
    exact ⟨rfl, rfl, fun h => h0 ((hp.map _).mem_iff.mp h), i', hi', (hfew i' hi').mp hlt⟩
  · rintro ⟨rfl, he, h0, i', hi', hlt⟩
    simp only [Prod.mk.injEq] at he
    exact ⟨rfl, he.1, he.2, fun h => h0 ((hp.map _).mem_iff.mpr h), i', hi', (hfew i' hi').mpr hlt⟩

/-- **C23** (partial: what the entries are).  `fit` succeeds.  In row `i` columns ascend; every entry is
one of the `K` best items sharing a user with `i`, with the exact entry of `Mᵀ M`, and all of these are
there — in every row except row 0, and in row 0 too if item 0 is among its own `K` best, or if every item
shares users with at least `K` items.  Missing: row 0 otherwise, see `C23_padding_violated`. -/
theorem C23_rows_partial (H : HeapImpl (R × Nat) pairLt) (n K : Nat) (hK : 1 ≤ K)
    (hnK : n * K ≤ 2 ^ 31) (M : SpRows R) (hM : ∀ r ∈ M, ∀ e ∈ r, e.1 < n) :
    ∃ sim, knnFit H n K M false = .ok sim ∧ sim.length = n ∧
      ∀ i < n, ∃ row out, sim[i]? = some row ∧ (row.map Prod.fst).Pairwise (· < ·) ∧
        Spec.IsRanking K (Spec.CoRated M i) (fun j => some (Spec.similarity M i j)) out ∧
        (i ≠ 0 ∨ 0 ∈ out.map Prod.fst ∨ (∀ i' < n, ¬ Spec.Few M K i') → ∀ p, p ∈ row ↔ p ∈ out) := by
  obtain ⟨sim, e, hlen, h⟩ := knnFit_rows H n K hK hnK M hM
  refine ⟨sim, e, hlen, fun i hi => ?_⟩
  obtain ⟨row, out, h1, h2, h3, h4⟩ := h i hi
  refine ⟨row, out, h1, h2, h3, fun hc p => (h4 p).trans ⟨?_, Or.inl⟩⟩
  rintro (hp | ⟨h0, -, hn, i', hi', hf⟩)
  · exact hp
  · rcases hc with hc | hc | hc
    · exact absurd h0 hc
    · exact absurd hc hn
    · exact absurd hf (hc i' hi')

/-- **C23 is violated** in row 0: unused result slots are left as the triple `(0, 0, 0.0)`, which the
COO constructor takes for an entry of row 0.  Here item 0 was never rated, yet `similarity[0]` has an
entry for item 0. -/
theorem C23_padding_violated :
    knnFit (R := Rat) insertionHeap 2 1 [[(1, 1)]] false = .ok [[(0, 0)], [(1, 1)]] ∧
      ¬ Spec.CoRated ([[(1, 1)]] : SpRows Rat) 0 0 := by
  refine ⟨by decide +kernel, ?_⟩
  rintro ⟨row, hrow, ⟨v, hv⟩, -⟩
  simp only [List.mem_singleton] at hrow
  subst hrow
  simp at hv

/-- **C23 is violated** in row 0 (more than `K` neighbours): item 1 is the best neighbour of item 0 and
the only one kept for `K = 1`, but the row has two entries, item 0 with similarity 0 instead of 1. -/
theorem C23_extra_violated :
    knnFit (R := Rat) insertionHeap 3 1 [[(0, 1), (1, 2)]] false =
      .ok [[(0, 0), (1, 2)], [(1, 4)], []] ∧
      Spec.similarity ([[(0, 1), (1, 2)]] : SpRows Rat) 0 0 = 1 := by
  refine ⟨by decide +kernel, by decide +kernel⟩

/-- Three items with shared users, `K = 2`; every row keeps its two best. -/
example : knnFit (R := Rat) insertionHeap 3 2 [[(0, 1), (1, 2)], [(1, 1), (2, 1)], [(0, 1), (2, 3)]] false =
    .ok [[(1, 2), (2, 3)], [(0, 2), (1, 5)], [(0, 3), (2, 10)]] := by
  decide +kernel

end Implicit
