import Verif.Spec.NeighbourFeedback
import Verif.Lemmas.KnnExact
import Verif.Lemmas.QueryLaws
import Verif.Lemmas.Split
import Verif.Props.C25
import Verif.Props.C51
import Verif.Props.C74Knn
import Mathlib.Algebra.Order.BigOperators.Group.List
/-!
# C89 — Item-item recommendations follow the ratings
-/

set_option linter.unusedSectionVars false

namespace Implicit

open Spec

variable {R : Type} [LinearOrder R] [Field R]

/-! ## One rating more -/

theorem itemScore_cells (sim : SpRows R) (j n : Nat) : ∀ (row : List (Nat × R)), (∀ e ∈ row, e.1 < n) →
    itemScore sim row j = ∑ i ∈ Finset.range n, cell row i * cell (sim.getD i []) j
  | [], _ => by simp [itemScore, cell, sumAt]
  | e :: row, h => by
    have ih := itemScore_cells sim j n row fun x hx => h x (by simp [hx])
    have e1 : itemScore sim (e :: row) j = e.2 * cell (sim.getD e.1 []) j + itemScore sim row j := by
      unfold itemScore; rw [List.map_cons, List.sum_cons]
    have e2 : ∀ i, cell (e :: row) i * cell (sim.getD i []) j =
        (if e.1 = i then e.2 * cell (sim.getD i []) j else 0) + cell row i * cell (sim.getD i []) j := by
      intro i
      show ((if e.1 = i then e.2 else 0) + sumAt row i) * _ = _ + sumAt row i * _
      rw [add_mul, ite_mul, zero_mul]
    rw [e1, ih, Finset.sum_congr rfl fun i _ => e2 i, Finset.sum_add_distrib, Finset.sum_ite_eq,
      if_pos (Finset.mem_range.mpr (h e (by simp)))]

theorem itemScore_more {sim : SpRows R} {row row' : List (Nat × R)} (hrow : ∀ e ∈ row, e.1 < sim.length)
    (hrow' : ∀ e ∈ row', e.1 < sim.length) {j : Nat} (hj : j < sim.length) {v : R} (h : RatedMore row row' j v) (i : Nat) :
    itemScore sim row' i = itemScore sim row i + v * cell (sim.getD j []) i := by
  rw [itemScore_cells sim i sim.length row hrow, itemScore_cells sim i sim.length row' hrow']
  have : ∀ k, cell row' k * cell (sim.getD k []) i =
      cell row k * cell (sim.getD k []) i + if j = k then v * cell (sim.getD k []) i else 0 := by
    intro k
    rw [h.cells k, add_mul, ite_mul, zero_mul]
    simp only [eq_comm]
  rw [Finset.sum_congr rfl fun k _ => this k, Finset.sum_add_distrib, Finset.sum_ite_eq, if_pos (Finset.mem_range.mpr hj)]

theorem reachable_more {sim : SpRows R} {row row' : List (Nat × R)} {j : Nat} {v : R} (h : RatedMore row row' j v) {i : Nat}
    (hi : Reachable sim row i) : Reachable sim row' i := by
  obtain ⟨e, he, hs⟩ := hi
  obtain ⟨w, hw⟩ := h.kept e.1 ⟨e.2, he⟩
  exact ⟨_, hw, hs⟩

/-- Does the filter of liked items hide item `i` from a user with this row? -/
def Spec.Hidden (liked : Bool) (row : List (Nat × R)) (i : Nat) : Prop := liked = true ∧ Stored row i

theorem knnScore_shown {sim : SpRows R} {row : List (Nat × R)} {liked : Bool} {i : Nat} (h : ¬ Hidden liked row i) :
    knnScore sim row liked i = itemScore sim row i := by
  unfold knnScore
  refine if_neg fun hc => h ⟨hc.1, ?_⟩
  simpa [Stored] using hc.2

theorem hidden_more {row row' : List (Nat × R)} {j : Nat} {v : R} (h : RatedMore row row' j v) {liked : Bool} {i : Nat}
    (hi : ¬ Hidden liked row' i) : ¬ Hidden liked row i := fun hc => hi ⟨hc.1, h.kept i hc.2⟩

/-- **C89** (a rating).  When a user rates item `j` by `v` more, the score of every item listed before and after changes by
`v` times its similarity to `j`: not at all if it is no neighbour of `j`, and upwards if it is a similar one.  Items that were
ahead of others stay ahead if they are at least as similar to `j`, and are still listed if those are. -/
theorem C89_rating [IsStrictOrderedRing R] (H : HeapImpl (R × Nat) pairLt) (lowest : R) (sim : SpRows R) (hsim : SquareRows sim)
    {row row' : List (Nat × R)} (hrow : ∀ e ∈ row, e.1 < sim.length) (hrow' : ∀ e ∈ row', e.1 < sim.length)
    {j : Nat} (hj : j < sim.length) {v : R} (hv : 0 < v) (h : RatedMore row row' j v) (N N' : Nat) (hN : 1 ≤ N) (hN' : 1 ≤ N')
    (liked : Bool) :
    ∃ out out', knnRecommendOne H lowest (KnnState.ofSimilarity sim) [row] N liked none none =
        (.ok (intRow out), KnnState.ofSimilarity sim) ∧
      knnRecommendOne H lowest (KnnState.ofSimilarity sim) [row'] N' liked none none =
        (.ok (intRow out'), KnnState.ofSimilarity sim) ∧
      (∀ p ∈ out, ∀ p' ∈ out', p'.1 = p.1 → ¬ Hidden liked row' p.1 →
        p'.2 = p.2 + v * cell (sim.getD j []) p.1 ∧
        (¬ Stored (sim.getD j []) p.1 → p'.2 = p.2) ∧ (0 < cell (sim.getD j []) p.1 → p.2 < p'.2)) ∧
      ∀ p ∈ out, ∀ q ∈ out, q.2 < p.2 → ¬ Hidden liked row' p.1 → ¬ Hidden liked row' q.1 →
        cell (sim.getD j []) q.1 ≤ cell (sim.getD j []) p.1 → ∀ q' ∈ out', q'.1 = q.1 →
        ∃ p' ∈ out', p'.1 = p.1 ∧ q'.2 < p'.2 := by
  obtain ⟨out, e, ho⟩ := knnRecommendOne_ok H lowest sim hsim row hrow [] N N hN liked none none rfl
  obtain ⟨out', e', ho'⟩ := knnRecommendOne_ok H lowest sim hsim row' hrow' [] N' N' hN' liked none none rfl
  have hs : ∀ p ∈ out, ¬ Hidden liked row' p.1 → p.2 = itemScore sim row p.1 := by
    intro p hp hh
    rw [← knnScore_shown (hidden_more h hh)]
    exact (Option.some.inj (ho.mem p hp).2).symm
  have hs' : ∀ p ∈ out', ¬ Hidden liked row' p.1 → p.2 = itemScore sim row' p.1 := by
    intro p hp hh
    rw [← knnScore_shown hh]
    exact (Option.some.inj (ho'.mem p hp).2).symm
  refine ⟨out, out', e, e', ?_, ?_⟩
  · intro p hp p' hp' hid hh
    have h1 : p'.2 = p.2 + v * cell (sim.getD j []) p.1 := by
      rw [hs p hp hh, hs' p' hp' (hid ▸ hh), hid, itemScore_more hrow hrow' hj h]
    refine ⟨h1, fun hns => ?_, fun hpos => ?_⟩
    · rw [h1]
      have : cell (sim.getD j []) p.1 = 0 := sumAt_eq_zero hns
      rw [this, mul_zero, add_zero]
    · rw [h1]
      have := mul_pos hv hpos
      linarith
  · intro p hp q hq hlt hhp hhq hsim' q' hq' hid
    have hmore := itemScore_more hrow hrow' hj h
    have hp1 := hs p hp hhp
    have hq1 := hs q hq hhq
    have hq2 := hs' q' hq' (hid ▸ hhq)
    have key : q'.2 < itemScore sim row' p.1 := by
      rw [hq2, hid, hmore, hmore, ← hp1, ← hq1]
      have := mul_le_mul_of_nonneg_left hsim' hv.le
      linarith
    by_cases hin : p.1 ∈ out'.map Prod.fst
    · obtain ⟨p', hp', hid'⟩ := List.mem_map.mp hin
      refine ⟨p', hp', hid', ?_⟩
      rw [hs' p' hp' (hid' ▸ hhp), hid']
      exact key
    · exfalso
      have := ho'.best p.1 (itemScore sim row' p.1) (reachable_more h (ho.mem p hp).1)
        (by rw [knnScore_shown hhp]) hin q' hq'
      exact absurd key (not_lt.mpr this)

/-! ## The scale of the ratings -/

/-- All ratings multiplied by `c`. -/
def Spec.scaled (c : R) (row : List (Nat × R)) : List (Nat × R) := row.map fun e => (e.1, c * e.2)

theorem itemScore_scaled (c : R) (sim : SpRows R) (row : List (Nat × R)) (j : Nat) :
    itemScore sim (scaled c row) j = c * itemScore sim row j := by
  unfold itemScore scaled
  rw [List.map_map, ← List.sum_map_mul_left]
  congr 1
  refine List.map_congr_left fun e _ => ?_
  simp only [Function.comp_apply]
  ring

theorem scaled_ids (c : R) (row : List (Nat × R)) : (scaled c row).map Prod.fst = row.map Prod.fst := by
  unfold scaled; rw [List.map_map]; rfl

theorem candidates_scaled (c : R) (sim : SpRows R) (row : List (Nat × R)) (liked : Bool) :
    candidates sim (scaled c row) (knnScore sim (scaled c row) liked) =
      mapScores (c * ·) (candidates sim row (knnScore sim row liked)) := by
  have h1 : addedIds sim (scaled c row) = addedIds sim row := by
    unfold addedIds scaled; rw [List.flatMap_map]
  unfold candidates mapScores
  rw [h1, List.map_map]
  refine List.map_congr_left fun i _ => ?_
  show _ = (c * knnScore sim row liked i, i)
  unfold knnScore
  rw [scaled_ids, itemScore_scaled]
  split_ifs <;> simp

/-- **C89** (scale).  Multiplying all ratings of a user by a positive number multiplies every score by it; the items and their
order stay the same, even among equal scores. -/
theorem C89_scale [IsStrictOrderedRing R] (H : HeapImpl (R × Nat) pairLt) (lowest : R) (sim : SpRows R) (hsim : SquareRows sim)
    {row : List (Nat × R)} (hrow : ∀ e ∈ row, e.1 < sim.length) {c : R} (hc : 0 < c) (N : Nat) (hN : 1 ≤ N) (liked : Bool) :
    ∃ out, knnRecommendOne H lowest (KnnState.ofSimilarity sim) [row] N liked none none =
        (.ok (intRow out), KnnState.ofSimilarity sim) ∧
      knnRecommendOne H lowest (KnnState.ofSimilarity sim) [scaled c row] N liked none none =
        (.ok (intRow (scaled c out)), KnnState.ofSimilarity sim) := by
  have hrow' : ∀ e ∈ scaled c row, e.1 < sim.length := by
    intro e he
    obtain ⟨x, hx, rfl⟩ := List.mem_map.mp he
    exact hrow x hx
  obtain ⟨h, e, hs⟩ := scorer_exact H sim hsim row hrow N hN liked
  obtain ⟨h', e', hs'⟩ := scorer_exact H sim hsim (scaled c row) hrow' N hN liked
  have hg : StrictMono (c * · : R → R) := fun a b hab => mul_lt_mul_of_pos_left hab hc
  obtain ⟨r', er, hsort⟩ := offerAll_sort_map hg H H _ e
  rw [candidates_scaled, er] at e'
  cases e'
  have key : ∀ {row : List (Nat × R)} {o : List (Nat × R)},
      scorerRecommend H sim (Accum.new sim.length) row N liked = .ok (o, Accum.new sim.length) →
      knnRecommendOne H lowest (KnnState.ofSimilarity sim) [row] N liked none none =
        (.ok (intRow o), KnnState.ofSimilarity sim) := by
    intro row o ho
    unfold knnRecommendOne
    have he : scorerRecommend H (KnnState.ofSimilarity sim).similarity (KnnState.ofSimilarity sim).acc row N liked =
      .ok (o, Accum.new sim.length) := ho
    simp only [knnPlan, he]
    rfl
  refine ⟨(H.sort h).map Prod.swap, key hs, ?_⟩
  have := key hs'
  rw [hsort] at this
  have hm : (mapScores (c * ·) (H.sort h)).map Prod.swap = scaled c ((H.sort h).map Prod.swap) := by
    unfold mapScores scaled
    rw [List.map_map, List.map_map]
    rfl
  rw [hm] at this
  exact this

/-! ## The number of neighbours kept -/

/-- The heaps of `all_pairs_knn`. -/
theorem knnHeap_nested (H : HeapImpl (R × Nat) pairLt) {K K' : Nat} (hK : 1 ≤ K) (hKK : K ≤ K') {n : Nat} (M : SpRows R)
    (hM : ∀ r ∈ M, ∀ e ∈ r, e.1 < n) {i : Nat} (hi : i < n) :
    knnHeap H n K M (colOf n M i) ⊆ knnHeap H n K' M (colOf n M i) := by
  obtain ⟨h, e, er⟩ := knnRow_exact H hK M hM _ (colOf_bound M hi)
  obtain ⟨h', e', er'⟩ := knnRow_exact H (le_trans hK hKK) M hM _ (colOf_bound M hi)
  unfold knnHeap
  rw [er, er']
  exact offerAll_nested hK hKK _ (HeapInv.nil H K) (HeapInv.nil H K') (by simpa using candidates_nodup _ _ _) (by simp) e e'

/-- The similarity matrix in terms of the heaps. -/
theorem knnFit_cells (H : HeapImpl (R × Nat) pairLt) {n K : Nat} (hK : 1 ≤ K) (hnK : n * K ≤ 2 ^ 31) (M : SpRows R)
    (hM : ∀ r ∈ M, ∀ e ∈ r, e.1 < n) :
    ∃ sim, knnFit H n K M false = .ok sim ∧ sim.length = n ∧ ∀ i < n,
      (∀ c v, (c, v) ∈ sim.getD i [] ↔ (v, c) ∈ knnHeap H n K M (colOf n M i) ∨
        (i = 0 ∧ c = 0 ∧ v = 0 ∧ 0 ∉ (knnHeap H n K M (colOf n M 0)).map Prod.snd ∧
          ∃ i' < n, (knnHeap H n K M (colOf n M i')).length < K)) ∧
      ((sim.getD i []).map Prod.fst).Nodup ∧ (∀ p ∈ knnHeap H n K M (colOf n M i), CoRated M i p.2 ∧ p.1 = similarity M i p.2) := by
  have hg : ∀ i < n, IsRanking K (CoRated M i) (fun j => some (similarity M i j))
      ((H.sort (knnHeap H n K M (colOf n M i))).map Prod.swap) ∧
      (H.sort (knnHeap H n K M (colOf n M i))).Perm (knnHeap H n K M (colOf n M i)) := by
    intro i hi
    obtain ⟨h, e1, hl, hrank, hp⟩ := knnRow_ok H hK M hM _ (colOf_bound M hi)
    have hh : knnHeap H n K M (colOf n M i) = h := by unfold knnHeap; simp only [e1]
    rw [hh]
    refine ⟨?_, hp⟩
    have hcol := colOf_get M hi
    have e2 : Reachable M (colOf n M i) = CoRated M i := funext fun j => propext (transpose_reachable hcol j)
    have e3 : (fun j => some (itemScore M (colOf n M i) j)) = fun j => some (similarity M i j) :=
      funext fun j => by rw [transpose_score hcol]
    rw [← e2, ← e3]; exact hrank
  refine ⟨_, by unfold knnFit; rw [allPairsKnn_eq H hK hnK M hM]; rfl, by simp [cooToCsr], ?_⟩
  intro i hi
  obtain ⟨hrank, hp⟩ := hg i hi
  have hrow : (cooToCsr n ((List.range n).flatMap fun i => slotBlock K i (knnHeap H n K M (colOf n M i)))).getD i [] =
      coalesce (cooRow i ((List.range n).flatMap fun i => slotBlock K i (knnHeap H n K M (colOf n M i)))) := by
    rw [List.getD_eq_getElem?_getD]
    unfold cooToCsr
    rw [List.getElem?_map, List.getElem?_range hi]
    rfl
  have hnd : ((knnHeap H n K M (colOf n M i)).map Prod.snd).Nodup := by
    have h1 := hrank.distinct
    rw [List.map_map] at h1
    exact (hp.map _).nodup_iff.mp h1
  rw [hrow]
  refine ⟨fun c v => mem_knn_row hi (fun i => knnHeap H n K M (colOf n M i)) hnd c v,
    (coalesce_sorted _).imp fun h => Nat.ne_of_lt h, ?_⟩
  intro p hp'
  have hm := hrank.mem p.swap (List.mem_map.mpr ⟨p, hp.mem_iff.mpr hp', rfl⟩)
  exact ⟨hm.1, (Option.some.inj hm.2).symm⟩

theorem similarity_nonneg [IsStrictOrderedRing R] {M : SpRows R} (h : NonNegative M) (i j : Nat) : 0 ≤ similarity M i j := by
  unfold similarity
  refine List.sum_nonneg fun x hx => ?_
  obtain ⟨row, hr, rfl⟩ := List.mem_map.mp hx
  exact mul_nonneg (h row hr i) (h row hr j)

/-- A cell of a row without repeated columns. -/
theorem cell_cases {row : List (Nat × R)} (hnd : (row.map Prod.fst).Nodup) (j : Nat) :
    (∃ v, (j, v) ∈ row ∧ cell row j = v) ∨ (¬ Stored row j ∧ cell row j = 0) := by
  by_cases h : Stored row j
  · obtain ⟨v, hv⟩ := h
    exact Or.inl ⟨v, hv, sumAt_of_mem hnd hv⟩
  · exact Or.inr ⟨h, sumAt_eq_zero h⟩

/-- **C89** (more neighbours).  Fitting with a larger `K` only adds neighbours, even when similarities tie: every stored
similarity stays (row 0 may hold an additional zero, see C23).  If no weight is negative, no similarity gets smaller. -/
theorem C89_more_neighbours [IsStrictOrderedRing R] (H : HeapImpl (R × Nat) pairLt) {n K K' : Nat} (hK : 1 ≤ K) (hKK : K ≤ K')
    (hnK : n * K' ≤ 2 ^ 31) (M : SpRows R) (hM : ∀ r ∈ M, ∀ e ∈ r, e.1 < n) :
    ∃ sim sim', knnFit H n K M false = .ok sim ∧ knnFit H n K' M false = .ok sim' ∧ sim.length = n ∧ sim'.length = n ∧
      (∀ i < n, ∀ p ∈ sim.getD i [], p ∈ sim'.getD i [] ∨ (i = 0 ∧ p = (0, 0))) ∧
      (NonNegative M → ∀ i < n, ∀ j, 0 ≤ cell (sim.getD i []) j ∧ cell (sim.getD i []) j ≤ cell (sim'.getD i []) j) := by
  obtain ⟨sim, e, hl, hc⟩ := knnFit_cells H hK (le_trans (Nat.mul_le_mul_left n hKK) hnK) M hM
  obtain ⟨sim', e', hl', hc'⟩ := knnFit_cells H (le_trans hK hKK) hnK M hM
  have hsub : ∀ i < n, ∀ p ∈ sim.getD i [], p ∈ sim'.getD i [] ∨ (i = 0 ∧ p = (0, 0)) := by
    rintro i hi ⟨c, v⟩ hp
    rcases ((hc i hi).1 c v).mp hp with h | ⟨h0, rfl, rfl, -⟩
    · exact Or.inl (((hc' i hi).1 c v).mpr (Or.inl (knnHeap_nested H hK hKK M hM hi h)))
    · exact Or.inr ⟨h0, rfl⟩
  refine ⟨sim, sim', e, e', hl, hl', hsub, fun hpos i hi j => ?_⟩
  have hge : ∀ {sm : SpRows R} {k : Nat}, (∀ c v, (c, v) ∈ sm.getD i [] ↔ (v, c) ∈ knnHeap H n k M (colOf n M i) ∨
        (i = 0 ∧ c = 0 ∧ v = 0 ∧ 0 ∉ (knnHeap H n k M (colOf n M 0)).map Prod.snd ∧
          ∃ i' < n, (knnHeap H n k M (colOf n M i')).length < k)) →
      (∀ p ∈ knnHeap H n k M (colOf n M i), CoRated M i p.2 ∧ p.1 = similarity M i p.2) →
      ∀ c v, (c, v) ∈ sm.getD i [] → 0 ≤ v := by
    intro sm k h1 h2 c v hv
    rcases (h1 c v).mp hv with h | ⟨-, -, rfl, -⟩
    · have := (h2 _ h).2
      simp only at this
      rw [this]
      exact similarity_nonneg hpos _ _
    · exact le_refl _
  have h0 := hge (hc i hi).1 (hc i hi).2.2
  have h0' := hge (hc' i hi).1 (hc' i hi).2.2
  have hnn' : 0 ≤ cell (sim'.getD i []) j := by
    rcases cell_cases (hc' i hi).2.1 j with ⟨v, hv, ev⟩ | ⟨-, ev⟩
    · rw [ev]; exact h0' _ _ hv
    · rw [ev]
  rcases cell_cases (hc i hi).2.1 j with ⟨v, hv, ev⟩ | ⟨-, ev⟩
  · refine ⟨by rw [ev]; exact h0 _ _ hv, ?_⟩
    rcases hsub i hi _ hv with h | ⟨-, h⟩
    · rw [ev]
      exact le_of_eq (sumAt_of_mem (hc' i hi).2.1 h).symm
    · cases h
      rw [ev]; exact hnn'
  · rw [ev]; exact ⟨le_refl _, hnn'⟩

theorem itemScore_mono [IsStrictOrderedRing R] {sim sim' : SpRows R} {row : List (Nat × R)} (hpos : ∀ e ∈ row, 0 ≤ e.2) {j : Nat}
    (h : ∀ e ∈ row, cell (sim.getD e.1 []) j ≤ cell (sim'.getD e.1 []) j) : itemScore sim row j ≤ itemScore sim' row j := by
  unfold itemScore
  exact List.sum_le_sum fun e he => mul_le_mul_of_nonneg_left (h e he) (hpos e he)

/-- **C89** (more neighbours, scores).  With a larger `K` no recommended item gets a lower score, if no weight and no rating is
negative. -/
theorem C89_more_neighbours_scores [IsStrictOrderedRing R] (H : HeapImpl (R × Nat) pairLt) (lowest : R) {n K K' : Nat}
    (hK : 1 ≤ K) (hKK : K ≤ K') (hnK : n * K' < 2 ^ 31) (M : SpRows R) (hM : ∀ r ∈ M, ∀ e ∈ r, e.1 < n) (hpos : NonNegative M)
    {row : List (Nat × R)} (hrow : ∀ e ∈ row, e.1 < n) (hr : ∀ e ∈ row, 0 ≤ e.2) (N N' : Nat) (hN : 1 ≤ N) (hN' : 1 ≤ N')
    (liked : Bool) :
    ∃ sim sim' out out', knnFit H n K M false = .ok sim ∧ knnFit H n K' M false = .ok sim' ∧
      knnRecommendOne H lowest (KnnState.ofSimilarity sim) [row] N liked none none =
        (.ok (intRow out), KnnState.ofSimilarity sim) ∧
      knnRecommendOne H lowest (KnnState.ofSimilarity sim') [row] N' liked none none =
        (.ok (intRow out'), KnnState.ofSimilarity sim') ∧
      ∀ p ∈ out, ∀ p' ∈ out', p'.1 = p.1 → p.2 ≤ p'.2 := by
  obtain ⟨sim, sim', e, e', hl, hl', -, hmono⟩ := C89_more_neighbours H hK hKK (le_of_lt hnK) M hM
  have hsq := knnFit_square H (lt_of_le_of_lt (Nat.mul_le_mul_left n hKK) hnK) hM e
  have hsq' := knnFit_square H hnK hM e'
  obtain ⟨out, eo, ho⟩ := knnRecommendOne_ok H lowest sim hsq row (by rwa [hl]) [] N N hN liked none none rfl
  obtain ⟨out', eo', ho'⟩ := knnRecommendOne_ok H lowest sim' hsq' row (by rwa [hl']) [] N' N' hN' liked none none rfl
  refine ⟨sim, sim', out, out', e, e', eo, eo', fun p hp p' hp' hid => ?_⟩
  have h1 := Option.some.inj (ho.mem p hp).2
  have h2 := Option.some.inj (ho'.mem p' hp').2
  rw [← h1, ← h2, hid]
  unfold knnScore
  split_ifs
  · exact le_refl _
  · exact itemScore_mono hr fun e he => (hmono hpos e.1 (hrow e he) p.1).2

/-! ## Common users -/

theorem similarity_insert (A B : SpRows R) (row : List (Nat × R)) (i j : Nat) :
    similarity (A ++ row :: B) i j = similarity (A ++ B) i j + cell row i * cell row j := by
  unfold similarity
  simp only [List.map_append, List.map_cons, List.sum_append, List.sum_cons]
  ring

/-- **C89** (a new user).  When the data gets the ratings of one more user, `similar_items` of an item (other than item 0, see
C23) changes by the product of that user's ratings of the two items: not at all if they rated only one of them, and upwards if
they gave both a positive rating. -/
theorem C89_new_user_partial [IsStrictOrderedRing R] (H : HeapImpl (R × Nat) pairLt) (S : ArgSort R) (lowest : R) {n K : Nat}
    (hK : 1 ≤ K) (hnK : n * K ≤ 2 ^ 31) (A B : SpRows R) (row : List (Nat × R)) (hA : ∀ r ∈ A ++ row :: B, ∀ e ∈ r, e.1 < n) :
    ∃ sim sim', knnFit H n K (A ++ B) false = .ok sim ∧ knnFit H n K (A ++ row :: B) false = .ok sim' ∧
      ∀ i N, 0 < i → i < n → N ≤ K →
      ∃ out out', knnSimilarOne S lowest sim i N none none false = .ok (intRow out) ∧
        knnSimilarOne S lowest sim' i N none none false = .ok (intRow out') ∧
        (∀ p ∈ out, ∀ p' ∈ out', p'.1 = p.1 → p'.2 = p.2 + cell row i * cell row p.1) ∧
        (∀ p ∈ out, ∀ p' ∈ out', p'.1 = p.1 → 0 < cell row i → 0 < cell row p.1 → p.2 < p'.2) ∧
        (∀ p ∈ out, ∀ q ∈ out, q.2 < p.2 → 0 ≤ cell row i → cell row q.1 ≤ cell row p.1 → ∀ q' ∈ out', q'.1 = q.1 →
          ∃ p' ∈ out', p'.1 = p.1 ∧ q'.2 < p'.2) := by
  obtain ⟨sim, e, h⟩ := C51_fitted_partial H S lowest n K hK hnK (A ++ B) (by
    intro r hr
    refine hA r ?_
    rcases List.mem_append.mp hr with h | h
    · exact List.mem_append.mpr (Or.inl h)
    · exact List.mem_append.mpr (Or.inr (List.mem_cons_of_mem _ h)))
  obtain ⟨sim', e', h'⟩ := C51_fitted_partial H S lowest n K hK hnK (A ++ row :: B) hA
  refine ⟨sim, sim', e, e', fun i N h0 hi hN => ?_⟩
  obtain ⟨out, eo, ho⟩ := h i N h0 hi hN
  obtain ⟨out', eo', ho'⟩ := h' i N h0 hi hN
  have key : ∀ p ∈ out, ∀ p' ∈ out', p'.1 = p.1 → p'.2 = p.2 + cell row i * cell row p.1 := by
    intro p hp p' hp' hid
    have h1 := Option.some.inj (ho.mem p hp).2
    have h2 := Option.some.inj (ho'.mem p' hp').2
    rw [← h1, ← h2, hid, similarity_insert]
  refine ⟨out, out', eo, eo', key, ?_, ?_⟩
  · intro p hp p' hp' hid h1 h2
    rw [key p hp p' hp' hid]
    have := mul_pos h1 h2
    linarith
  · intro p hp q hq hlt hci hle q' hq' hid
    have hq1 := key q hq q' hq' hid
    have hp1 := Option.some.inj (ho.mem p hp).2
    have hnew : similarity (A ++ row :: B) i p.1 = p.2 + cell row i * cell row p.1 := by
      rw [similarity_insert, hp1]
    have hlt' : q'.2 < similarity (A ++ row :: B) i p.1 := by
      rw [hnew, hq1]
      have := mul_le_mul_of_nonneg_left hle hci
      linarith
    by_cases hin : p.1 ∈ out'.map Prod.fst
    · obtain ⟨p', hp', hid'⟩ := List.mem_map.mp hin
      refine ⟨p', hp', hid', ?_⟩
      rw [← Option.some.inj (ho'.mem p' hp').2, hid']
      exact hlt'
    · exfalso
      have hco : CoRated (A ++ row :: B) i p.1 := by
        obtain ⟨r, hr, hs⟩ := (ho.mem p hp).1
        refine ⟨r, ?_, hs⟩
        rcases List.mem_append.mp hr with h | h
        · exact List.mem_append.mpr (Or.inl h)
        · exact List.mem_append.mpr (Or.inr (List.mem_cons_of_mem _ h))
      exact absurd hlt' (not_lt.mpr (ho'.best p.1 _ hco rfl hin q' hq'))

/-- Ratings, scale and number of neighbours on a small model: item 2 is more similar to item 1 than item 0 is. -/
example :
    let sim : SpRows Rat := [[(0, 4), (1, 2)], [(0, 2), (1, 3), (2, 5)], [(1, 5), (2, 6)]]
    RatedMore [(0, 1)] [(0, 1), (1, 1)] 1 (1 : Rat) ∧
      (knnRecommendOne insertionHeap (-1000) (KnnState.ofSimilarity sim) [[(0, 1)]] 3 false none none).1 =
        .ok [(0, 4), (1, 2)] ∧
      (knnRecommendOne insertionHeap (-1000) (KnnState.ofSimilarity sim) [[(0, 1), (1, 1)]] 3 false none none).1 =
        .ok [(0, 6), (2, 5), (1, 5)] ∧
      (knnRecommendOne insertionHeap (-1000) (KnnState.ofSimilarity sim) [[(0, 10), (1, 10)]] 3 false none none).1 =
        .ok [(0, 60), (2, 50), (1, 50)] := by
  refine ⟨⟨fun i => ?_, ?_⟩, by decide +kernel, by decide +kernel, by decide +kernel⟩
  · simp only [cell, sumAt]
    by_cases h : i = 1
    · subst h; simp
    · have : ¬ (1 : Nat) = i := fun e => h e.symm
      simp [h, this]
  · rintro i ⟨v, hv⟩
    exact ⟨v, by simp at hv ⊢; exact Or.inl hv⟩

example :
    knnFit (R := Rat) insertionHeap 3 1 [[(0, 1), (1, 2)], [(1, 1), (2, 1)], [(0, 1), (2, 3)]] false =
      .ok [[(2, 3)], [(1, 5)], [(2, 10)]] ∧
    knnFit (R := Rat) insertionHeap 3 2 [[(0, 1), (1, 2)], [(1, 1), (2, 1)], [(0, 1), (2, 3)]] false =
      .ok [[(1, 2), (2, 3)], [(0, 2), (1, 5)], [(0, 3), (2, 10)]] ∧
    knnFit (R := Rat) insertionHeap 3 2 [[(0, 1), (1, 2)], [(1, 1), (2, 1)], [(0, 1), (2, 3)], [(1, 3), (2, 4)]] false =
      .ok [[(1, 2), (2, 3)], [(1, 14), (2, 13)], [(1, 13), (2, 26)]] := by
  refine ⟨by decide +kernel, by decide +kernel, by decide +kernel⟩

/-- Negative weights are excluded in the second half of `C89_more_neighbours`: here the second neighbour lowers the score of
item 2. -/
example :
    let M : SpRows Rat := [[(1, 1), (2, -2)], [(1, -1), (2, 1)]]
    knnFit insertionHeap 3 1 M false = .ok [[(0, 0)], [(1, 2)], [(2, 5)]] ∧
    knnFit insertionHeap 3 2 M false = .ok [[(0, 0)], [(1, 2), (2, -3)], [(1, -3), (2, 5)]] ∧
    (knnRecommendOne insertionHeap (-1000) (KnnState.ofSimilarity [[(0, 0)], [(1, 2)], [(2, 5)]]) [[(1, 1), (2, 1)]] 1 false
      none none).1 = .ok [(2, (5 : Rat))] ∧
    (knnRecommendOne insertionHeap (-1000) (KnnState.ofSimilarity [[(0, 0)], [(1, 2), (2, -3)], [(1, -3), (2, 5)]])
      [[(1, 1), (2, 1)]] 1 false none none).1 = .ok [(2, (2 : Rat))] := by
  refine ⟨by decide +kernel, by decide +kernel, by decide +kernel, by decide +kernel⟩

end Implicit
