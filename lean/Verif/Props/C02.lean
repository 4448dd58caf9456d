import Verif.Lemmas.Recommend

/-!
# C02 — factor-model `recommend` returns the N items with the largest predicted score
-/

namespace Implicit

variable {R : Type} [LinearOrder R] [Field R] {f : Nat}

/-- What the code returns for *every* `N ≥ 1` (no filters): the ranking of the best items, followed
by `N - (number of items)` cells `(id 0, score 0)` left over from the zero-initialised buffer. -/
theorem C02_recommend_answer (H : HeapImpl (R × Nat) pairLt) (neginf : R) (m : Factors f R)
    (recalc : SpRows R → Except Err (List (Vec f R))) (ui : Option (SpRows R))
    (u : Nat) (x : Vec f R) (hu : m.user[u]? = some x) (hitems : m.item ≠ [])
    (N : Nat) (hN : 1 ≤ N) :
    ∃ ranking,
      recommend H neginf m recalc (.one u) ui N false none false none =
        .ok (.one (ranking ++ List.replicate (N - m.item.length) (0, 0))) ∧
      ranking.length = min N m.item.length ∧
      Spec.IsRanking N (fun i => i < m.item.length) (fun i => (m.item[i]?).map (dot x)) ranking := by
  have hp := plain_selection H hN (m.item.map (dot x))
  simp only [List.length_map, List.getElem?_map] at hp
  refine ⟨_, ?_, ?_, hp.1⟩
  · refine recommend_one H neginf (s := m.item.map (dot x)) rfl (userFactor_stored hu) rfl hN hitems
      rfl ?_
    unfold remapRow padRow
    simp only
    rw [hp.2]
    congr 3
    omega
  · simp [hp.2]

/-- **C02** for requests not exceeding the catalogue: `recommend` succeeds with exactly `N` entries,
which rank the items by inner product with the user's factor. -/
theorem C02_recommend_partial (H : HeapImpl (R × Nat) pairLt) (neginf : R) (m : Factors f R)
    (recalc : SpRows R → Except Err (List (Vec f R))) (ui : Option (SpRows R))
    (u : Nat) (x : Vec f R) (hu : m.user[u]? = some x)
    (N : Nat) (hN : 1 ≤ N) (hle : N ≤ m.item.length) :
    ∃ out, recommend H neginf m recalc (.one u) ui N false none false none = .ok (.one out) ∧
      out.length = N ∧
      Spec.IsRanking N (fun i => i < m.item.length) (fun i => (m.item[i]?).map (dot x)) out := by
  have hitems : m.item ≠ [] := by
    intro h; rw [h] at hle; simp at hle; omega
  obtain ⟨out, e, hl, hr⟩ := C02_recommend_answer H neginf m recalc ui u x hu hitems N hN
  refine ⟨out, ?_, by omega, hr⟩
  rw [e]
  have : N - m.item.length = 0 := by omega
  simp [this]

/-- Two items with negative scores for user 0, used in the counter-example below. -/
def c02Model : Factors 1 Rat := ⟨[![1]], [![-1], ![-2]]⟩

/-- **C02 is violated** for `N` larger than the catalogue: with two items and `N = 3` the answer
lists item 0 twice, the second time with a score that is not its predicted score, and the scores are
not in decreasing order. -/
theorem C02_recommend_violated (H : HeapImpl (Rat × Nat) pairLt) (neginf : Rat) :
    recommend H neginf c02Model noRecalc (.one 0) none 3 false none false none =
      .ok (.one [(0, -1), (1, -2), (0, 0)]) ∧
    ∀ N, ¬ Spec.IsRanking N (fun i => i < c02Model.item.length)
      (fun i => (c02Model.item[i]?).map (dot ![1])) [(0, (-1 : Rat)), (1, -2), (0, 0)] := by
  constructor
  · refine recommend_one H neginf (s := [-1, -2]) (x := ![1]) rfl ?_ rfl (by omega)
      (by simp [c02Model]) ?_ ?_
    · exact userFactor_stored rfl
    · simp [maskedRow, scoreRow, likedPositions, c02Model, dot, bind, Except.bind, pure, Except.pure]
    · have : sel H 3 [(-1 : Rat), -2] = sel insertionHeap 3 [(-1 : Rat), -2] := by
        unfold sel; rw [C01_select_heap_independent H insertionHeap]
      rw [this]
      have : sel insertionHeap 3 [(-1 : Rat), -2] = [(-1, 0), (-2, 1)] := by decide +kernel
      rw [this]; rfl
  · intro N h
    have := h.distinct
    simp at this

/-- The hypotheses of `C02_recommend_partial` are met by a concrete model. -/
example : c02Model.user[0]? = some ![1] ∧ 1 ≤ 2 ∧ 2 ≤ c02Model.item.length := by
  refine ⟨rfl, by omega, by simp [c02Model]⟩

end Implicit
