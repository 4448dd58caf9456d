import Verif.Lemmas.KnnScorer
import Verif.Props.C43

/-!
# C25 — item-item scores are the weighted sum of similarities, independent of earlier calls

`KnnState.ofSimilarity sim` is a model just fitted, loaded or unpickled.
-/

set_option linter.unusedSectionVars false

namespace Implicit

variable {R : Type} [LinearOrder R] [Field R]

/-- **C25**.  The answer for one user ranks the `N` best items among the stored neighbours of the rated
items; scores are the sums of rating times similarity.  The model is left as it was. -/
theorem C25_scores (H : HeapImpl (R × Nat) pairLt) (lowest : R) (sim : SpRows R)
    (hsim : SquareRows sim) (row : List (Nat × R)) (hrow : ∀ e ∈ row, e.1 < sim.length)
    (N : Nat) (hN : 1 ≤ N) :
    ∃ out, knnRecommendOne H lowest (KnnState.ofSimilarity sim) [row] N false none none =
        (.ok (intRow out), KnnState.ofSimilarity sim) ∧
      Spec.IsRanking N (Spec.Reachable sim row) (fun j => some (Spec.itemScore sim row j)) out := by
  obtain ⟨out, e, h⟩ := knnRecommendOne_ok H lowest sim hsim row hrow [] N N hN false none none rfl
  exact ⟨out, e, h.congrScore fun j _ => by simp [knnScore]⟩

/-- **C25** (with the filter of liked items).  Same, except that the rated items score 0. -/
theorem C25_scores_filtered (H : HeapImpl (R × Nat) pairLt) (lowest : R) (sim : SpRows R)
    (hsim : SquareRows sim) (row : List (Nat × R)) (hrow : ∀ e ∈ row, e.1 < sim.length)
    (N : Nat) (hN : 1 ≤ N) :
    ∃ out, knnRecommendOne H lowest (KnnState.ofSimilarity sim) [row] N true none none =
        (.ok (intRow out), KnnState.ofSimilarity sim) ∧
      Spec.IsRanking N (Spec.Reachable sim row)
        (fun j => some (if j ∈ row.map Prod.fst then 0 else Spec.itemScore sim row j)) out := by
  obtain ⟨out, e, h⟩ := knnRecommendOne_ok H lowest sim hsim row hrow [] N N hN true none none rfl
  exact ⟨out, e, h.congrScore fun j _ => by unfold knnScore; simp only [true_and]⟩

/-- A scalar query. -/
structure KnnQuery (R : Type) where
  rows : SpRows R
  N : Nat
  liked : Bool
  filterItems : Option (List Int)
  items : Option (List Int)

def KnnQuery.run (H : HeapImpl (R × Nat) pairLt) (lowest : R) (st : KnnState R) (q : KnnQuery R) :
    Except Err (List (Int × R)) × KnnState R :=
  knnRecommendOne H lowest st q.rows q.N q.liked q.filterItems q.items

/-- Consecutive queries on one model. -/
def runKnn (H : HeapImpl (R × Nat) pairLt) (lowest : R) : KnnState R → List (KnnQuery R) →
    List (Except Err (List (Int × R))) × KnnState R
  | st, [] => ([], st)
  | st, q :: qs =>
    ((q.run H lowest st).1 :: (runKnn H lowest (q.run H lowest st).2 qs).1,
      (runKnn H lowest (q.run H lowest st).2 qs).2)

/-- **C25** (any history).  In any sequence of queries - valid or not, failing or not - every query gives
the answer it gives on the fresh model.  Concurrent queries hold the lock of the scorer while they use
the accumulator, so they are such a sequence in the order in which they got the lock. -/
theorem C25_history (H : HeapImpl (R × Nat) pairLt) (lowest : R) (sim : SpRows R)
    (hsim : SquareRows sim) (qs : List (KnnQuery R)) :
    runKnn H lowest (KnnState.ofSimilarity sim) qs =
      (qs.map fun q => (q.run H lowest (KnnState.ofSimilarity sim)).1, KnnState.ofSimilarity sim) := by
  induction qs with
  | nil => rfl
  | cons q qs ih =>
    have hst : (q.run H lowest (KnnState.ofSimilarity sim)).2 = KnnState.ofSimilarity sim :=
      knnRecommendOne_state H lowest sim hsim q.rows q.N q.liked q.filterItems q.items
    unfold runKnn
    rw [hst, ih]
    rfl

/-- **C25** (batch).  Row `i` of a batch answer is the single answer for row `i` of `user_items`, padded
to `N` columns. -/
theorem C25_batch (H : HeapImpl (R × Nat) pairLt) (lowest lowest32 : R) (sim : SpRows R)
    (hsim : SquareRows sim) (us : List Nat) (rows : SpRows R) (hlen : rows.length = us.length)
    (hrows : ∀ row ∈ rows, ∀ e ∈ row, e.1 < sim.length) (N : Nat) (hN : 1 ≤ N) :
    ∃ answers, knnRecommend H lowest lowest32 (KnnState.ofSimilarity sim) (.many us) true rows N false
        none none = (.ok (.many answers), KnnState.ofSimilarity sim) ∧ answers.length = us.length ∧
      ∀ (i : Nat) row answer, rows[i]? = some row → answers[i]? = some answer →
        ∃ out, Spec.IsRanking N (Spec.Reachable sim row)
            (fun j => some (Spec.itemScore sim row j)) out ∧
          Spec.IsPaddedRow lowest32 N (intRow out) answer := by
  choose! outs houts using fun (row : List (Nat × R)) (h : ∀ e ∈ row, e.1 < sim.length) =>
    C25_scores H lowest sim hsim row h N hN
  have hget : ∀ (i : Nat), i < us.length → ∃ row, rows[i]? = some row ∧ row ∈ rows := by
    intro i hi
    have h := List.getElem?_eq_getElem (show i < rows.length by omega)
    exact ⟨_, h, List.mem_of_getElem? h⟩
  obtain ⟨answers, e, hl, h⟩ := C43_batch lowest32 N (knnBatchFunc H lowest N false none none)
    (KnnState.ofSimilarity sim)
    (fun id a => knnRecommendOne_state H lowest sim hsim _ N false none none)
    (some rows) us (fun rs hr => by cases hr; omega) (fun i => intRow (outs (rows.getD i []))) (by
      intro i id hi
      have hi' : i < us.length := (List.getElem?_eq_some_iff.mp hi).1
      obtain ⟨row, hr, hmem⟩ := hget i hi'
      have hg : rows.getD i [] = row := by rw [List.getD_eq_getElem?_getD, hr]; rfl
      unfold knnBatchFunc argOf
      simp only [Option.getD_some, hg]
      rw [(houts row (hrows row hmem)).1])
  refine ⟨answers, ?_, hl, ?_⟩
  · unfold knnRecommend
    simp only [Bool.not_true, Bool.false_eq_true, if_false, hlen, ne_eq, not_true_eq_false, e]
  · intro i row answer hr ha
    refine ⟨outs row, (houts row (hrows row (List.mem_of_getElem? hr))).2, ?_⟩
    have := h i answer ha
    rwa [List.getD_eq_getElem?_getD, hr, Option.getD_some] at this

/-- The user id of a scalar query is not looked at, nor are the rows after the first: passing the whole
`user_items` matrix gives the recommendations of the user in row 0. -/
theorem C25_first_row_only (H : HeapImpl (R × Nat) pairLt) (lowest lowest32 : R) (st : KnnState R)
    (u u' : Nat) (row : List (Nat × R)) (rest : SpRows R) (N : Nat) (liked : Bool)
    (F S : Option (List Int)) :
    knnRecommend H lowest lowest32 st (.one u) true (row :: rest) N liked F S =
      knnRecommend H lowest lowest32 st (.one u') true [row] N liked F S := rfl

/-- Items 1 and 2 are neighbours of what the user rated; a second, different query is not affected by
the first. -/
example :
    let sim : SpRows Rat := [[(0, 4), (1, 2)], [(0, 2), (1, 3), (2, 1)], [(1, 1), (2, 5)]]
    (runKnn insertionHeap (-1000) (KnnState.ofSimilarity sim)
      [⟨[[(0, 1), (1, 2)]], 2, false, none, none⟩, ⟨[[(2, 1)]], 3, true, none, none⟩]).1 =
      [.ok [(1, 8), (0, 8)], .ok [(1, 1), (2, 0)]] := by
  decide +kernel

end Implicit
