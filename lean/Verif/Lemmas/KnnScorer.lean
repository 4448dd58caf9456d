import Verif.Lemmas.Knn
import Verif.Lemmas.Ranking

set_option linter.unusedSectionVars false

namespace Implicit

variable {R : Type} [LinearOrder R] [Field R]

/-- The score of an item after the code zeroed the items of the row (if asked to). -/
noncomputable def knnScore (sim : SpRows R) (row : List (Nat × R)) (removeOwnLikes : Bool) (j : Nat) :
    R :=
  if removeOwnLikes = true ∧ j ∈ row.map Prod.fst then 0 else Spec.itemScore sim row j

/-- The matrix is square and its indices exist. -/
def SquareRows (sim : SpRows R) : Prop := ∀ r ∈ sim, ∀ e ∈ r, e.1 < sim.length

theorem reachable_lt {sim : SpRows R} (hsim : SquareRows sim) {row : List (Nat × R)} {j : Nat}
    (h : Spec.Reachable sim row j) : j < sim.length := by
  obtain ⟨e, -, v, hv⟩ := h
  by_cases hlt : e.1 < sim.length
  · rw [List.getD_eq_getElem?_getD, List.getElem?_eq_getElem hlt] at hv
    exact hsim _ (List.getElem_mem hlt) _ hv
  · rw [List.getD_eq_getElem?_getD, List.getElem?_eq_none (by omega)] at hv
    simp at hv

theorem scorer_ok (H : HeapImpl (R × Nat) pairLt) (sim : SpRows R) (hsim : SquareRows sim)
    (row : List (Nat × R)) (hrow : ∀ e ∈ row, e.1 < sim.length) (K : Nat) (hK : 1 ≤ K) (rm : Bool) :
    ∃ out, scorerRecommend H sim (Accum.new sim.length) row K rm = .ok (out, Accum.new sim.length) ∧
      Spec.IsRanking K (Spec.Reachable sim row) (fun j => some (knnScore sim row rm j)) out := by
  obtain ⟨adds, e1, hs, hst⟩ := productAdds_ok sim row hrow
  obtain ⟨a, l, e2, hrep, hlen, hmem, e3⟩ := round_ok (R := R) adds (productAdds_bound sim hsim e1)
  have hmem' : (· ∈ l) = Spec.Reachable sim row := by
    funext j
    apply propext
    rw [← hst j, hmem]
    unfold Spec.Stored
    simp
  have htot : ∀ j, totalAt adds j = Spec.itemScore sim row j := fun j => by
    rw [totalAt_eq_sumAt, hs j]; rfl
  cases rm with
  | false =>
    obtain ⟨h, e4, hrank, hp, hl⟩ := accum_heap H hK hrep.nodup (totalAt adds)
    refine ⟨(H.sort h).map Prod.swap, ?_, ?_⟩
    · unfold scorerRecommend
      rw [e1]
      simp only [bind, Except.bind, e2, Bool.false_eq_true, if_false, pure, Except.pure, e3, e4]
    · rw [hmem'] at hrank
      simpa [knnScore, htot] using hrank
  | true =>
    obtain ⟨a', e5, hrep', hlen'⟩ := hrep.clearAll (row.map Prod.fst) (by
      intro i hi
      obtain ⟨e, he, rfl⟩ := List.mem_map.mp hi
      exact hrow e he)
    have e6 : a'.foreach = .ok (l.map fun i => (i, if i ∈ row.map Prod.fst then 0 else totalAt adds i),
        Accum.new sim.length) := by
      unfold Accum.foreach
      rw [hlen', hlen]
      exact hrep'.drain
    obtain ⟨h, e4, hrank, hp, hl⟩ := accum_heap H hK hrep.nodup
      (fun i => if i ∈ row.map Prod.fst then 0 else totalAt adds i)
    refine ⟨(H.sort h).map Prod.swap, ?_, ?_⟩
    · unfold scorerRecommend
      rw [e1]
      simp only [bind, Except.bind, e2, if_true, e5, pure, Except.pure, e6, e4]
    · rw [hmem'] at hrank
      have : (fun j => some (knnScore sim row true j)) =
          fun i => some (if i ∈ row.map Prod.fst then 0 else totalAt adds i) := by
        funext j
        unfold knnScore
        simp only [true_and, htot]
      rw [this]; exact hrank

/-- Whatever happens, a call that returns leaves the accumulator in its initial state. -/
theorem scorer_state (H : HeapImpl (R × Nat) pairLt) (sim : SpRows R) (hsim : SquareRows sim)
    (row : List (Nat × R)) (K : Nat) (rm : Bool) {r : List (Nat × R) × Accum R}
    (h : scorerRecommend H sim (Accum.new sim.length) row K rm = .ok r) :
    r.2 = Accum.new sim.length := by
  unfold scorerRecommend at h
  cases e1 : productAdds sim row with
  | error e => rw [e1] at h; cases h
  | ok adds =>
    obtain ⟨a, l, e2, hrep, hlen, hmem, e3⟩ := round_ok (R := R) adds (productAdds_bound sim hsim e1)
    rw [e1] at h
    simp only [bind, Except.bind, e2] at h
    cases rm with
    | false =>
      simp only [Bool.false_eq_true, if_false, pure, Except.pure, e3] at h
      cases e4 : offerAll H K [] ((l.map fun i => (i, totalAt adds i)).map Prod.swap) with
      | error e => rw [e4] at h; cases h
      | ok g => rw [e4] at h; cases h; rfl
    | true =>
      simp only [if_true] at h
      by_cases hb : ∀ i ∈ row.map Prod.fst, i < sim.length
      · obtain ⟨a', e5, hrep', hlen'⟩ := hrep.clearAll (row.map Prod.fst) hb
        rw [e5] at h
        have e6 := hrep'.drain
        rw [← hlen, ← hlen'] at e6
        unfold Accum.foreach at h
        simp only [e6] at h
        cases e4 : offerAll H K [] ((l.map fun i => (i, if i ∈ row.map Prod.fst then 0
            else totalAt adds i)).map Prod.swap) with
        | error e => rw [e4] at h; cases h
        | ok g => rw [e4] at h; cases h; rfl
      · have hcl : ∀ (is : List Nat) (b : Accum R), b.sums.length = sim.length →
            (¬ ∀ i ∈ is, i < sim.length) → b.clearAll is = .error .undefinedBehaviour := by
          intro is
          induction is with
          | nil => intro b _ h; exact absurd (by simp) h
          | cons i is ih =>
            intro b hbl hn
            unfold Accum.clearAll Accum.clear
            by_cases hi : i < b.sums.length
            · rw [if_pos hi]
              refine ih _ (by simpa using hbl) (fun hall => hn ?_)
              intro j hj
              rcases List.mem_cons.mp hj with rfl | hj
              · rw [← hbl]; exact hi
              · exact hall j hj
            · rw [if_neg hi]; rfl
        rw [hcl _ _ hrep.sums_length hb] at h
        cases h

/-- A query never changes a model whose accumulator is clean. -/
theorem knnRecommendOne_state (H : HeapImpl (R × Nat) pairLt) (lowest : R) (sim : SpRows R)
    (hsim : SquareRows sim) (rows : SpRows R) (N : Nat) (liked : Bool) (F S : Option (List Int)) :
    (knnRecommendOne H lowest (KnnState.ofSimilarity sim) rows N liked F S).2 =
      KnnState.ofSimilarity sim := by
  unfold knnRecommendOne
  cases knnPlan (KnnState.ofSimilarity sim).similarity.length N F S with
  | error e => rfl
  | ok n =>
    cases rows with
    | nil => rfl
    | cons row rows =>
      simp only
      cases h : scorerRecommend H (KnnState.ofSimilarity sim).similarity (KnnState.ofSimilarity sim).acc
          row n liked with
      | error e => rfl
      | ok r =>
        have := scorer_state H sim hsim row n liked h
        simp only
        rw [this]; rfl

/-- A query, spelled out. -/
theorem knnRecommendOne_ok (H : HeapImpl (R × Nat) pairLt) (lowest : R) (sim : SpRows R)
    (hsim : SquareRows sim) (row : List (Nat × R)) (hrow : ∀ e ∈ row, e.1 < sim.length)
    (rest : SpRows R) (N n : Nat) (hn : 1 ≤ n) (liked : Bool) (F S : Option (List Int))
    (hplan : knnPlan sim.length N F S = .ok n) :
    ∃ out, knnRecommendOne H lowest (KnnState.ofSimilarity sim) (row :: rest) N liked F S =
        (.ok (knnPost lowest n F S out), KnnState.ofSimilarity sim) ∧
      Spec.IsRanking n (Spec.Reachable sim row) (fun j => some (knnScore sim row liked j)) out := by
  obtain ⟨out, e, h⟩ := scorer_ok H sim hsim row hrow n hn liked
  refine ⟨out, ?_, h⟩
  unfold knnRecommendOne
  have hp : knnPlan (KnnState.ofSimilarity sim).similarity.length N F S = .ok n := hplan
  rw [hp]
  have he : scorerRecommend H (KnnState.ofSimilarity sim).similarity (KnnState.ofSimilarity sim).acc row
      n liked = .ok (out, Accum.new sim.length) := e
  simp only [he]
  rfl

end Implicit
