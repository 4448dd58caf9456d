import Verif.Lemmas.KnnScorer
import Verif.Props.C43

/-!
# C27 — item-item filter_items removes the items and still gives at most N results
-/

set_option linter.unusedSectionVars false

namespace Implicit

variable {R : Type} [LinearOrder R] [Field R]

/-- The natural numbers in a list of integers. -/
def natIds (F : List Int) : List Nat := (F.filter fun i => decide (0 ≤ i)).map Int.toNat

theorem mem_natIds {F : List Int} {i : Nat} : i ∈ natIds F ↔ (i : Int) ∈ F := by
  unfold natIds
  rw [List.mem_map]
  constructor
  · rintro ⟨x, hx, rfl⟩
    obtain ⟨h1, h2⟩ := List.mem_filter.mp hx
    have : 0 ≤ x := by simpa using h2
    rwa [Int.toNat_of_nonneg this]
  · intro h
    exact ⟨i, List.mem_filter.mpr ⟨h, by simp⟩, by simp⟩

theorem natIds_length (F : List Int) : (natIds F).length ≤ F.length := by
  unfold natIds
  rw [List.length_map]
  exact List.length_filter_le _ _

/-- Filtering integer ids is filtering the ids. -/
theorem intRow_filter (F : List Int) (out : List (Nat × R)) :
    ((intRow out).filter fun p => !F.contains p.1) =
      intRow (out.filter fun p => !(natIds F).contains p.1) := by
  unfold intRow
  rw [List.filter_map]
  congr 1
  refine List.filter_congr fun p _ => ?_
  simp only [Function.comp_apply]
  congr 1
  rw [Bool.eq_iff_iff, List.contains_iff_mem, List.contains_iff_mem, mem_natIds]

/-- What a query with `filter_items` returns. -/
theorem knn_filtered (H : HeapImpl (R × Nat) pairLt) (lowest : R) (sim : SpRows R)
    (hsim : SquareRows sim) (row : List (Nat × R)) (hrow : ∀ e ∈ row, e.1 < sim.length)
    (rest : SpRows R) (N : Nat) (hN : 1 ≤ N) (liked : Bool) (F : List Int) :
    ∃ out, knnRecommendOne H lowest (KnnState.ofSimilarity sim) (row :: rest) N liked (some F) none =
        (.ok (intRow out), KnnState.ofSimilarity sim) ∧ (∀ p ∈ out, (p.1 : Int) ∉ F) ∧
      out.length ≤ N + F.length ∧
      Spec.IsRanking N (fun j => Spec.Reachable sim row j ∧ (j : Int) ∉ F)
        (fun j => some (knnScore sim row liked j)) (out.take N) := by
  obtain ⟨out, e, h⟩ := knnRecommendOne_ok H lowest sim hsim row hrow rest N (N + F.length)
    (by omega) liked (some F) none rfl
  refine ⟨(out.filter fun p => !(natIds F).contains p.1).take (N + F.length), ?_, ?_, by simp, ?_⟩
  · rw [e]
    unfold knnPost
    simp only
    rw [intRow_filter]
    unfold intRow
    rw [List.map_take]
  · intro p hp
    have := (List.mem_filter.mp (List.mem_of_mem_take hp)).2
    rw [← mem_natIds]
    simpa using this
  · rw [List.take_take, Nat.min_eq_left (by omega)]
    have := h.filterTake (N := N) (m := F.length) (F := natIds F) (natIds_length F)
    simpa only [mem_natIds] using this

/-- **C27** (partial).  No filtered item is returned, and the first `N` results are exactly the ranking of
the `N` best remaining candidates.  Missing: more than `N` results may be returned, see
`C27_too_many_violated`. -/
theorem C27_filter_partial (H : HeapImpl (R × Nat) pairLt) (lowest : R) (sim : SpRows R)
    (hsim : SquareRows sim) (row : List (Nat × R)) (hrow : ∀ e ∈ row, e.1 < sim.length)
    (N : Nat) (hN : 1 ≤ N) (F : List Int) :
    ∃ out, knnRecommendOne H lowest (KnnState.ofSimilarity sim) [row] N false (some F) none =
        (.ok (intRow out), KnnState.ofSimilarity sim) ∧ (∀ p ∈ out, (p.1 : Int) ∉ F) ∧
      out.length ≤ N + F.length ∧
      Spec.IsRanking N (fun j => Spec.Reachable sim row j ∧ (j : Int) ∉ F)
        (fun j => some (Spec.itemScore sim row j)) (out.take N) := by
  obtain ⟨out, e, h1, h2, h3⟩ := knn_filtered H lowest sim hsim row hrow [] N hN false F
  exact ⟨out, e, h1, h2, h3.congrScore fun j _ => by simp [knnScore]⟩

theorem paddedRow_take {lowest : R} {N : Nat} {single : List (Nat × R)} {row : List (Int × R)}
    (h : Spec.IsPaddedRow lowest N (intRow single) row) :
    Spec.IsPaddedRow lowest N (intRow (single.take N)) row := by
  refine ⟨h.1, fun j hj => ?_⟩
  rw [h.2 j hj]
  unfold intRow
  simp only [List.length_map, List.length_take, List.getElem?_map, List.getElem?_take, if_pos hj]
  by_cases hl : j < single.length
  · rw [if_pos hl, if_pos (by omega)]
  · rw [if_neg hl, if_neg (by omega)]

/-- **C27** (batch).  A batch cuts to `N`: every row is the padded ranking of the `N` best remaining
candidates. -/
theorem C27_batch (H : HeapImpl (R × Nat) pairLt) (lowest lowest32 : R) (sim : SpRows R)
    (hsim : SquareRows sim) (us : List Nat) (rows : SpRows R) (hlen : rows.length = us.length)
    (hrows : ∀ row ∈ rows, ∀ e ∈ row, e.1 < sim.length) (N : Nat) (hN : 1 ≤ N) (F : List Int) :
    ∃ answers, knnRecommend H lowest lowest32 (KnnState.ofSimilarity sim) (.many us) true rows N false
        (some F) none = (.ok (.many answers), KnnState.ofSimilarity sim) ∧
      answers.length = us.length ∧
      ∀ (i : Nat) row answer, rows[i]? = some row → answers[i]? = some answer →
        ∃ out, Spec.IsRanking N (fun j => Spec.Reachable sim row j ∧ (j : Int) ∉ F)
            (fun j => some (Spec.itemScore sim row j)) out ∧
          Spec.IsPaddedRow lowest32 N (intRow out) answer := by
  choose! outs houts using fun (row : List (Nat × R)) (h : ∀ e ∈ row, e.1 < sim.length) =>
    C27_filter_partial H lowest sim hsim row h N hN F
  have hget : ∀ (i : Nat), i < us.length → ∃ row, rows[i]? = some row ∧ row ∈ rows := by
    intro i hi
    have h := List.getElem?_eq_getElem (show i < rows.length by omega)
    exact ⟨_, h, List.mem_of_getElem? h⟩
  obtain ⟨answers, e, hl, h⟩ := C43_batch lowest32 N (knnBatchFunc H lowest N false (some F) none)
    (KnnState.ofSimilarity sim)
    (fun id a => knnRecommendOne_state H lowest sim hsim _ N false (some F) none)
    (some rows) us (fun rs hr => by cases hr; omega) (fun i => intRow (outs (rows.getD i []))) (by
      intro i id hi
      have hi' : i < us.length := (List.getElem?_eq_some_iff.mp hi).1
      obtain ⟨row, hr, hmem⟩ := hget i hi'
      have hg : rows.getD i [] = row := by rw [List.getD_eq_getElem?_getD, hr]; rfl
      unfold knnBatchFunc argOf
      simp only [Option.getD_some, hg]
      rw [(houts row (hrows row hmem)).1])
  refine ⟨answers, ?_, hl, ?_⟩
  · unfold knnRecommend
    simp only [Bool.not_true, Bool.false_eq_true, if_false, hlen, ne_eq, not_true_eq_false, e]
  · intro i row answer hr ha
    refine ⟨(outs row).take N, (houts row (hrows row (List.mem_of_getElem? hr))).2.2.2, ?_⟩
    have := h i answer ha
    rw [List.getD_eq_getElem?_getD, hr, Option.getD_some] at this
    exact paddedRow_take this

/-- **C27 is violated** for scalar queries: line 75 enlarges `N` by the size of the filter and line 93
cuts to the *enlarged* `N`.  Here `N = 1`, the filter removes an item that is no candidate, and two
items are returned. -/
theorem C27_too_many_violated :
    (knnRecommendOne (R := Rat) insertionHeap (-1000)
      (KnnState.ofSimilarity [[(0, 4), (1, 2)], [(0, 2), (1, 3)], []]) [[(0, 1)]] 1 false (some [2])
      none).1 = .ok [(0, 4), (1, 2)] := by
  decide +kernel

/-- The same query as a batch gives one result. -/
example :
    (knnRecommend (R := Rat) insertionHeap (-1000) (-100)
      (KnnState.ofSimilarity [[(0, 4), (1, 2)], [(0, 2), (1, 3)], []]) (.many [7]) true [[(0, 1)]] 1
      false (some [0]) none).1 = .ok (.many [[(1, 2)]]) := by
  decide +kernel

end Implicit
