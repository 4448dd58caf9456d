import Verif.Props.C99
import Verif.Props.C83
/-!
# C99: `TFIDFRecommender.fit` and `BM25Recommender.fit` in floating point
-/

namespace Implicit

theorem upTo_cell {G : ℝ} (hG : 1 ≤ G) (g' g : Nat → ℝ → ℝ) (row : List (Nat × ℝ)) (h : ∀ e ∈ row, UpTo G (g' e.1 e.2) (g e.1 e.2)) (i : Nat) :
    UpTo G (Spec.cell (row.map fun e => (e.1, g' e.1 e.2)) i) (Spec.cell (row.map fun e => (e.1, g e.1 e.2)) i) := by
  unfold Spec.cell
  induction row with
  | nil => exact ⟨hG, by simp [Spec.sumAt], by simp [Spec.sumAt], by simp [Spec.sumAt]⟩
  | cons e row ih =>
    simp only [List.map_cons, Spec.sumAt]
    refine UpTo.add ?_ (ih fun e he => h e (List.mem_cons_of_mem _ he))
    split_ifs
    · exact h e (by simp)
    · exact ⟨hG, le_rfl, by simp, by simp⟩

/-- The weights of the two fits are within a factor. -/
def WeightsUpTo (G : ℝ) (g' g : Nat → Nat → ℝ → ℝ) (M : SpRows ℝ) : Prop :=
  ∀ u row, M[u]? = some row → ∀ e ∈ row, UpTo G (g' e.1 u e.2) (g e.1 u e.2)

theorem upTo_similarity {G : ℝ} (hG : 1 ≤ G) {g' g : Nat → Nat → ℝ → ℝ} {M : SpRows ℝ} (h : WeightsUpTo G g' g M) (i j : Nat) :
    UpTo (G ^ 2) (Spec.similarity (weightRows g' M) i j) (Spec.similarity (weightRows g M) i j) := by
  unfold Spec.similarity weightRows
  rw [List.map_map, List.map_map]
  refine UpTo.sum _ (one_le_pow₀ hG) fun p hp => ?_
  have hrow := h p.2 p.1 (List.mem_zipIdx_iff_getElem?.mp hp)
  simp only [Function.comp_apply]
  rw [pow_two]
  exact (upTo_cell hG (fun i v => g' i p.2 v) (fun i v => g i p.2 v) p.1 hrow i).mul
    (upTo_cell hG (fun i v => g' i p.2 v) (fun i v => g i p.2 v) p.1 hrow j)

theorem cosine_similarity (M : SpRows ℝ) (i j : Nat) : Spec.cosine (Spec.column M i) (Spec.column M j) =
    Spec.similarity M i j / (Real.sqrt (Spec.similarity M i i) * Real.sqrt (Spec.similarity M j j)) := by
  have hl : ∀ k, Real.sqrt (Spec.similarity M k k) = Spec.length (Spec.column M k) := by
    intro k
    rw [similarity_eq_dot]
    unfold Spec.length
    simp only [pow_two]
  rw [hl, hl, ← similarity_cosine, similarity_div fun k => Spec.length (Spec.column M k)]

/-- Cosines of weights within the factor `G` differ by at most `G⁴ - 1`. -/
theorem cosine_upTo {G : ℝ} (hG : 1 ≤ G) {g' g : Nat → Nat → ℝ → ℝ} {M : SpRows ℝ} (h : WeightsUpTo G g' g M) (i j : Nat) :
    |Spec.cosine (Spec.column (weightRows g' M) i) (Spec.column (weightRows g' M) j) -
      Spec.cosine (Spec.column (weightRows g M) i) (Spec.column (weightRows g M) j)| ≤ G ^ 4 - 1 := by
  have h1 := (upTo_similarity hG h i j).div ((UpTo.sqrt_sq hG (upTo_similarity hG h i i)).mul (UpTo.sqrt_sq hG (upTo_similarity hG h j j)))
  rw [← cosine_similarity, ← cosine_similarity, show G ^ 2 * (G * G) = G ^ 4 by ring] at h1
  have h2 := (C29_range (weightRows g M) i j).1
  have h3 := h1.abs_le
  have h4 := h1.one
  have h5 := h1.nonneg
  rw [abs_of_nonneg h5] at h2
  refine h3.trans ?_
  calc (G ^ 4 - 1) * _ ≤ (G ^ 4 - 1) * 1 := mul_le_mul_of_nonneg_left h2 (by linarith)
    _ = _ := mul_one _

theorem itemUser_weight (n : Nat) (g : Nat → Nat → ℝ → ℝ) (M : SpRows ℝ) :
    itemUser n (weightRows g M) = ⟨n, (itemUser n M).entries.map fun e => (e.1, e.2.1, g e.1 e.2.1 e.2.2)⟩ := by
  unfold itemUser weightRows
  congr 1
  simp only [List.map_flatMap, List.map_map]
  have : ∀ k, ((M.zipIdx k).map fun p => p.1.map fun e : Nat × ℝ => (e.1, g e.1 p.2 e.2)).zipIdx k =
      (M.zipIdx k).map fun p => (p.1.map fun e : Nat × ℝ => (e.1, g e.1 p.2 e.2), p.2) := by
    induction M with
    | nil => intro k; rfl
    | cons row M ih =>
      intro k
      rw [List.zipIdx_cons, List.map_cons, List.zipIdx_cons, ih, List.map_cons]
  rw [this 0, List.flatMap_map]
  apply List.flatMap_congr
  intro p _
  rw [List.map_map]
  rfl

theorem length_weightRows (g : Nat → Nat → ℝ → ℝ) (M : SpRows ℝ) : (weightRows g M).length = M.length := by
  simp [weightRows]

theorem coRaters_weight (g : Nat → Nat → ℝ → ℝ) (M : SpRows ℝ) (i j : Nat) :
    Spec.coRaters (weightRows g M) i j = Spec.coRaters M i j := by
  unfold Spec.coRaters weightRows
  have : M = M.zipIdx.map Prod.fst := by simp
  conv_rhs => rw [this]
  rw [List.countP_map, List.countP_map]
  refine List.countP_congr fun p _ => ?_
  simp [List.any_map, Function.comp_def]

theorem coRaters_coalesce (M : SpRows ℝ) (i j : Nat) : Spec.coRaters (M.map coalesce) i j = Spec.coRaters M i j := by
  have hst : ∀ (l : List (Nat × ℝ)) (i : Nat), l.any (fun e => e.1 == i) = true ↔ Spec.Stored l i := by
    intro l i
    simp [Spec.Stored]
  unfold Spec.coRaters
  rw [List.countP_map]
  refine List.countP_congr fun row _ => ?_
  simp only [Function.comp_apply, Bool.and_eq_true, hst, stored_coalesce]

theorem raters_length (n : Nat) {M : SpRows ℝ} (hnd : ∀ row ∈ M, (row.map Prod.fst).Nodup) (i : Nat) :
    ((itemUser n M).entries.filter fun e => e.1 = i).length = Spec.coRaters M i i := by
  unfold itemUser Spec.coRaters
  simp only
  have : ∀ k, (((M.zipIdx k).flatMap fun p => p.1.map fun e : Nat × ℝ => (e.1, p.2, e.2)).filter fun e => e.1 = i).length =
      M.countP fun row => row.any (fun e => e.1 == i) && row.any (fun e => e.1 == i) := by
    induction M with
    | nil => intro k; rfl
    | cons row M ih =>
      intro k
      rw [List.zipIdx_cons, List.flatMap_cons, List.filter_append, List.length_append, ih (fun r hr => hnd r (List.mem_cons_of_mem _ hr)),
        List.countP_cons, List.filter_map, List.length_map]
      have h1 : row.filter ((fun e : Nat × Nat × ℝ => decide (e.1 = i)) ∘ fun e : Nat × ℝ => (e.1, k, e.2)) = row.filter fun e => e.1 == i := rfl
      rw [h1, filter_key (hnd row (by simp)) i]
      simp only [Bool.and_self]
      split_ifs <;> simp [Nat.add_comm]
  exact this 0

theorem approx_shift {K : Nat} {el : Nat → Prop} {score score' ε ε' : Nat → ℝ} {out : List (Nat × ℝ)}
    (h : Spec.ApproxRanking K el score ε out) (he : ∀ j, el j → |score j - score' j| + ε j ≤ ε' j) : Spec.ApproxRanking K el score' ε' out := by
  have hb : ∀ j, el j → score' j ≤ score j + (ε' j - ε j) ∧ score j ≤ score' j + (ε' j - ε j) := by
    intro j hj
    have := abs_le.mp (by linarith [he j hj] : |score j - score' j| ≤ ε' j - ε j)
    constructor <;> linarith [this.1, this.2]
  refine ⟨fun p hp => ⟨(h.mem p hp).1, ?_⟩, h.distinct, ?_, h.atMost, h.complete, ?_⟩
  · obtain ⟨h1, h2⟩ := h.mem p hp
    have := he _ h1
    calc |p.2 - score' p.1| ≤ |p.2 - score p.1| + |score p.1 - score' p.1| := abs_sub_le _ _ _
      _ ≤ _ := by linarith
  · refine (List.Pairwise.and_mem.mp h.sorted).imp ?_
    rintro a b ⟨ha, hb', hab⟩
    have h1 := (hb _ (h.mem a ha).1).2
    have h2 := (hb _ (h.mem b hb').1).1
    linarith
  · intro j hj hn p hp
    have h1 := (hb _ hj).1
    have h2 := (hb _ (h.mem p hp).1).2
    linarith [h.best j hj hn p hp]

/-! ## TF-IDF -/

section
variable {v : ℝ} (L : LogLibrary v) (s r : Rounding ℝ)

/-- The computed TF-IDF weight of a rating. -/
noncomputable def computedTfidf (n : Nat) (counts : SpRows ℝ) (_ u : Nat) (x : ℝ) : ℝ :=
  r.rnd (s.rnd (Real.sqrt x) * roundIdf L r (itemUser n counts) u)

theorem roundTfidfFit_cosine (H : HeapImpl (ℝ × Nat) pairLt) (n K : Nat) (counts : SpRows ℝ) :
    roundTfidfFit L s r H n K counts = roundCosineFit H r n K (weightRows (computedTfidf L s r n counts) counts) := by
  unfold roundTfidfFit roundCosineFit
  rw [itemUser_weight, length_weightRows]
  rfl

theorem columnCount_itemUser (n : Nat) (counts : SpRows ℝ) (u : Nat) (row : List (Nat × ℝ)) (hu : counts[u]? = some row) :
    Spec.columnCount (itemUser n counts).entries u = row.length := by
  unfold itemUser
  simp only
  rw [columnCount_zipIdx counts 0 u, if_pos (Nat.zero_le _), Nat.sub_zero, List.getD_eq_getElem?_getD, hu]
  rfl

variable {L s r}

theorem tfidf_upTo (hv : 0 ≤ v) (hs0 : s.η = 0) (hs : s.u < 1) (hr0 : r.η = 0) (hr : r.u < 1) {n : Nat} {counts : SpRows ℝ}
    (hu : ∀ r ∈ counts, r.length + 1 < n) (hn : Spec.idfError v n < 1) :
    WeightsUpTo (Spec.tfidfFactor s.u r.u v n) (computedTfidf L s r n counts) (fun _ u x => Real.sqrt x * idf (itemUser n counts) u) counts := by
  intro u row hrow e _
  refine upTo_tfidf L hv s r hs0 hs hr0 hr (itemUser n counts) e.2 u ?_ hn
  rw [columnCount_itemUser n counts u row hrow]
  exact hu row (List.mem_of_getElem? hrow)

theorem one_le_quotient {x : ℝ} (h0 : 0 ≤ x) (h1 : x < 1) : 1 ≤ 1 / (1 - x) := by
  rw [le_div_iff₀ (by linarith)]
  linarith

theorem idfError_nonneg (hv : 0 ≤ v) (n : Nat) : 0 ≤ Spec.idfError v n := by
  unfold Spec.idfError
  have : 0 ≤ Real.log n := Real.log_natCast_nonneg _
  positivity

theorem tfidfFactor_one {a b : ℝ} (hv : 0 ≤ v) (ha0 : 0 ≤ a) (ha : a < 1) (hb0 : 0 ≤ b) (hb : b < 1) {n : Nat} (hn : Spec.idfError v n < 1) :
    1 ≤ Spec.tfidfFactor a b v n :=
  one_le_mul_of_one_le_of_one_le (one_le_mul_of_one_le_of_one_le (one_le_quotient ha0 ha) (one_le_quotient (idfError_nonneg hv n) hn))
    (one_le_pow₀ (one_le_quotient hb0 hb))

theorem bm25Factor_one {a b : ℝ} (hv : 0 ≤ v) (ha0 : 0 ≤ a) (ha : a < 1) (hb0 : 0 ≤ b) (hb : b < 1) {n : Nat} (hn : Spec.idfError v n < 1)
    (m : Nat) : 1 ≤ Spec.bm25Factor a b v n m :=
  one_le_mul_of_one_le_of_one_le (one_le_mul_of_one_le_of_one_le (one_le_pow₀ (one_le_quotient ha0 ha))
    (one_le_quotient (idfError_nonneg hv n) hn)) (one_le_pow₀ (one_le_quotient hb0 hb))

/-- **C99** (`TFIDFRecommender`; partial: row 0 as in C23).  Positive ratings, at most `m` per item, every user with fewer than `n - 1`
of the `n` items, no underflow: after `fit` the row of item `i` lists items with a user in common, similarities within
`cosineFitError + (tfidfFactor⁴ - 1)` of the exact cosines of the TF-IDF vectors, and no item instead of another whose cosine is
greater by more than twice that. -/
theorem C99_tfidf_partial (L : LogLibrary v) (s r : Rounding ℝ) (hv : 0 ≤ v) (hs0 : s.η = 0) (hs : s.u < 1) (hr0 : r.η = 0) (hr : r.u < 1)
    (H : HeapImpl (ℝ × Nat) pairLt) (n K : Nat) (hK : 1 ≤ K) (hnK : n * K ≤ 2 ^ 31) (counts : SpRows ℝ)
    (hnd : ∀ row ∈ counts, (row.map Prod.fst).Nodup) (hM : ∀ r ∈ counts, ∀ e ∈ r, e.1 < n) (hz : ∀ r ∈ counts, ∀ e ∈ r, 0 < e.2)
    (hu : ∀ r ∈ counts, r.length + 1 < n) (hn : Spec.idfError v n < 1) (m : Nat) (hm : ∀ i, Spec.coRaters counts i i ≤ m)
    (hum : (1 + r.u) ^ (m + 2) < 2) :
    ∃ sim, roundTfidfFit L s r H n K counts = .ok sim ∧ sim.length = n ∧
      ∀ i, 0 < i → i < n → ∃ row out, sim[i]? = some row ∧ (∀ p, p ∈ row ↔ p ∈ out) ∧
        Spec.ApproxRanking K (Spec.CoRated counts i)
          (fun j => Spec.cosine (Spec.column (tfidfRows n counts) i) (Spec.column (tfidfRows n counts) j))
          (fun _ => Spec.cosineFitError r.u m + (Spec.tfidfFactor s.u r.u v n ^ 4 - 1)) out := by
  have hW := tfidf_upTo (L := L) (s := s) (r := r) hv hs0 hs hr0 hr hu hn
  have hG := tfidfFactor_one (a := s.u) (b := r.u) hv s.u_nonneg hs r.u_nonneg hr hn
  rw [roundTfidfFit_cosine]
  obtain ⟨sim, e, hl, h⟩ := C83_cosine_partial H r hr0 n K hK hnK (weightRows (computedTfidf L s r n counts) counts)
    (weightRows_nodup hnd) (by
      intro w hw e he
      obtain ⟨⟨row, u⟩, hp, rfl⟩ := List.mem_map.mp hw
      obtain ⟨x, hx, rfl⟩ := List.mem_map.mp he
      exact hM row (List.mem_of_getElem? (List.mem_zipIdx_iff_getElem?.mp hp)) x hx) (by
      intro w hw e he
      obtain ⟨⟨row, u⟩, hp, rfl⟩ := List.mem_map.mp hw
      obtain ⟨x, hx, rfl⟩ := List.mem_map.mp he
      have hrow := List.mem_zipIdx_iff_getElem?.mp hp
      have hrow' := List.mem_of_getElem? hrow
      refine ((hW u row hrow x hx).pos (mul_pos (Real.sqrt_pos.mpr (hz row hrow' x hx)) (idf_pos ?_))).ne'
      rw [columnCount_itemUser n counts u row hrow]
      exact hu row hrow') m (fun i => by rw [coRaters_weight]; exact hm i) hum
  refine ⟨sim, e, hl, fun i h0 hi => ?_⟩
  obtain ⟨row, out, h1, h2, h3⟩ := h i h0 hi
  refine ⟨row, out, h1, h2, ?_⟩
  rw [show Spec.CoRated (weightRows (computedTfidf L s r n counts) counts) i = Spec.CoRated counts i from
    funext fun j => propext (coRated_weight _ _ _ _)] at h3
  refine approx_shift h3 fun j _ => ?_
  have := cosine_upTo hG hW i j
  rw [tfidfRows_eq] at this
  linarith

/-! ## BM25 -/

/-- The computed BM25 weight of a rating. -/
noncomputable def computedBm25 (L : LogLibrary v) (s r : Rounding ℝ) (K1 B : ℝ) (n : Nat) (t : SumTree n) (counts : SpRows ℝ) (i u : Nat)
    (x : ℝ) : ℝ :=
  r.rnd (s.rnd (s.rnd (x * s.rnd (r.rnd (K1 + 1))) / s.rnd (s.rnd (s.rnd K1 * roundLengthNorm s r B (itemUser n counts) t i) + x)) *
    roundIdf L r (itemUser n counts) u)

/-- The exact BM25 weight of rating `x` of item `i` by user `u`. -/
noncomputable def exactBm25 (K1 B : ℝ) (n : Nat) (counts : SpRows ℝ) (i u : Nat) (x : ℝ) : ℝ :=
  x * (K1 + 1) / (K1 * lengthNorm B (itemUser n counts) i + x) * (Real.log n - Real.log (1 + (counts.getD u []).length))

theorem entries_mem {n : Nat} {counts : SpRows ℝ} {e : Nat × Nat × ℝ} (he : e ∈ (itemUser n counts).entries) :
    ∃ row, counts[e.2.1]? = some row ∧ (e.1, e.2.2) ∈ row := by
  unfold itemUser at he
  obtain ⟨⟨row, u⟩, hp, he⟩ := List.mem_flatMap.mp he
  obtain ⟨x, hx, rfl⟩ := List.mem_map.mp he
  exact ⟨row, List.mem_zipIdx_iff_getElem?.mp hp, hx⟩

theorem bm25_upTo (hv : 0 ≤ v) (hs0 : s.η = 0) (hs : s.u < 1) (hr0 : r.η = 0) (hr : r.u < 1) {K1 B : ℝ} (hK1 : 0 ≤ K1) (hB0 : 0 ≤ B)
    (hB1 : B ≤ 1) {n : Nat} {counts : SpRows ℝ} (hnd : ∀ row ∈ counts, (row.map Prod.fst).Nodup) (hz : ∀ r ∈ counts, ∀ e ∈ r, 0 < e.2)
    (hu : ∀ r ∈ counts, r.length + 1 < n) (hn : Spec.idfError v n < 1) {m : Nat} (hm : ∀ i, Spec.coRaters counts i i ≤ m) (t : SumTree n)
    (ht : t.Complete) : WeightsUpTo (Spec.bm25Factor s.u r.u v n m) (computedBm25 L s r K1 B n t counts) (exactBm25 K1 B n counts) counts := by
  intro u row hrow e he
  have hrow' := List.mem_of_getElem? hrow
  have hc : Spec.columnCount (itemUser n counts).entries u + 1 < (itemUser n counts).nrows := by
    rw [columnCount_itemUser n counts u row hrow]
    exact hu row hrow'
  have hl := upTo_lengthNorm s r hs0 hs hr0 hr hB0 hB1 (X := itemUser n counts) (fun e he => by
    obtain ⟨row, h1, h2⟩ := entries_mem he
    exact hz row (List.mem_of_getElem? h1) (e.1, e.2.2) h2) (fun i => by rw [raters_length n hnd]; exact hm i) t ht e.1
  have := upTo_bm25 s r hs0 hs hr0 hr hK1 (hz row hrow' e he) hl (upTo_idf L hv r hr0 hr (itemUser n counts) u hc hn) rfl
  rw [idf_itemUser] at this
  exact this

/-- **C99** (`BM25Recommender`; partial: row 0 as in C23).  Positive ratings, at most `m` per item, every user with fewer than `n - 1` of
the `n` items, `K1 ≥ 0`, `B` from `0` to `1`, no underflow: after `fit` the row of item `i` lists items with a user in common, the
similarities off, relative to the exact inner product of the BM25 weights, by no more than the factor of the two weights and the
error of the sum over the common users, and no item instead of another that is better by more than the two errors. -/
theorem C99_bm25_partial (L : LogLibrary v) (s r : Rounding ℝ) (hv : 0 ≤ v) (hs0 : s.η = 0) (hs : s.u < 1) (hr0 : r.η = 0) (hr : r.u < 1)
    (H : HeapImpl (ℝ × Nat) pairLt) (n K : Nat) (hK : 1 ≤ K) (hnK : n * K ≤ 2 ^ 31) (K1 B : ℝ) (hK1 : 0 ≤ K1) (hB0 : 0 ≤ B) (hB1 : B ≤ 1)
    (t : SumTree n) (ht : t.Complete) (counts : SpRows ℝ)
    (hnd : ∀ row ∈ counts, (row.map Prod.fst).Nodup) (hM : ∀ r ∈ counts, ∀ e ∈ r, e.1 < n) (hz : ∀ r ∈ counts, ∀ e ∈ r, 0 < e.2)
    (hu : ∀ r ∈ counts, r.length + 1 < n) (hn : Spec.idfError v n < 1) (m : Nat) (hm : ∀ i, Spec.coRaters counts i i ≤ m) :
    ∃ sim, roundBm25Fit L s r H n K K1 B t counts = .ok sim ∧ sim.length = n ∧
      ∀ i, 0 < i → i < n → ∃ row out, sim[i]? = some row ∧ (∀ p, p ∈ row ↔ p ∈ out) ∧
        Spec.ApproxRanking K (Spec.CoRated counts i) (Spec.similarity (weightRows (exactBm25 K1 B n counts) counts) i)
          (fun j => ((1 + r.u) ^ (Spec.coRaters counts i j + 1) * Spec.bm25Factor s.u r.u v n m ^ 2 - 1) *
            Spec.similarity (weightRows (exactBm25 K1 B n counts) counts) i j) out := by
  have hW := bm25_upTo (L := L) (s := s) (r := r) hv hs0 hs hr0 hr hK1 hB0 hB1 hnd hz hu hn hm t ht
  have hrows : userRows counts.length (roundBm25 L s r K1 B (itemUser n counts) t) =
      (weightRows (computedBm25 L s r K1 B n t counts) counts).map coalesce := by
    rw [← userRows_eq n (computedBm25 L s r K1 B n t counts) counts]
    rfl
  unfold roundBm25Fit
  rw [hrows]
  set W' := weightRows (computedBm25 L s r K1 B n t counts) counts with hW'
  obtain ⟨sim, e, hl, h⟩ := C83_fit_partial H r n K hK hnK (W'.map coalesce) (by
      intro row hrow
      obtain ⟨d, -, rfl⟩ := List.mem_map.mp hrow
      exact (coalesce_sorted d).imp fun hab => Nat.ne_of_lt hab) (by
      intro row hrow e he
      obtain ⟨d, hd, rfl⟩ := List.mem_map.mp hrow
      obtain ⟨v, hv⟩ := (stored_coalesce d e.1).mp ⟨e.2, he⟩
      obtain ⟨⟨w, u⟩, hp, rfl⟩ := List.mem_map.mp hd
      obtain ⟨y, hy, hye⟩ := List.mem_map.mp hv
      have hy1 : y.1 = e.1 := (Prod.mk.inj hye).1
      rw [← hy1]
      exact hM w (List.mem_of_getElem? (List.mem_zipIdx_iff_getElem?.mp hp)) y hy)
  refine ⟨sim, e, hl, fun i h0 hi => ?_⟩
  obtain ⟨row, out, h1, -, h3, h4⟩ := h i hi
  refine ⟨row, out, h1, h4 (Or.inl (by omega)), ?_⟩
  rw [show Spec.CoRated (W'.map coalesce) i = Spec.CoRated counts i from
    funext fun j => propext ((coRated_coalesce W' i j).trans (coRated_weight _ _ _ _))] at h3
  refine approx_shift h3 fun j _ => ?_
  have hG := bm25Factor_one (a := s.u) (b := r.u) hv s.u_nonneg hs r.u_nonneg hr hn m
  have hS := upTo_similarity hG hW i j
  rw [← hW'] at hS
  have hmass : Spec.similarityMass (W'.map coalesce) i j = Spec.similarity W' i j := by
    unfold Spec.similarityMass Spec.similarity
    rw [List.map_map]
    congr 1
    refine List.map_congr_left fun w hw => ?_
    have hcell : ∀ k, 0 ≤ Spec.cell w k := by
      intro k
      rw [hW'] at hw
      obtain ⟨⟨row, u⟩, hp, rfl⟩ := List.mem_map.mp hw
      exact (upTo_cell hG (fun i x => computedBm25 L s r K1 B n t counts i u x) (fun i x => exactBm25 K1 B n counts i u x) row
        (hW u row (List.mem_zipIdx_iff_getElem?.mp hp)) k).nonneg'
    have hco : ∀ k, Spec.cell (coalesce w) k = Spec.cell w k := fun k => sumAt_coalesce w k
    simp only [Function.comp_apply, hco]
    exact abs_of_nonneg (mul_nonneg (hcell i) (hcell j))
  rw [hmass, similarity_coalesce, coRaters_coalesce, hW', coRaters_weight, ← hW', hr0]
  unfold Spec.sumError
  have h5 := hS.abs_le
  have h6 := hS.upper
  have h7 : 1 ≤ (1 + r.u) ^ (Spec.coRaters counts i j + 1) := one_le_pow₀ (by linarith [r.u_nonneg])
  have h8 := mul_le_mul_of_nonneg_left h6 (by linarith : 0 ≤ (1 + r.u) ^ (Spec.coRaters counts i j + 1) - 1)
  linarith

end

end Implicit
