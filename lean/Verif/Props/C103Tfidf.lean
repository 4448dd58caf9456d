import Verif.Model.ExtendedTfidf
import Verif.Props.C103Cosine
import Verif.Props.C99Examples
/-!
# C103 for TF-IDF weights
-/

namespace Implicit

variable {v : ℝ} {L : LogLibrary v} {s r : Rounding ℝ}

theorem quotient_two {x : ℝ} (h0 : 0 ≤ x) (h : x ≤ 1 / 2) : 0 ≤ 1 / (1 - x) ∧ 1 / (1 - x) ≤ 2 := by
  refine ⟨div_nonneg zero_le_one (by linarith), ?_⟩
  rw [div_le_iff₀ (by linarith)]
  linarith

theorem idf_le {X : Coo} {c : Nat} (h : Spec.columnCount X.entries c + 1 < X.nrows) : idf X c ≤ X.nrows := by
  rw [idf_eq]
  have h1 : 0 ≤ Real.log (1 + Spec.columnCount X.entries c) := Real.log_nonneg (by
    have : (0 : ℝ) ≤ Spec.columnCount X.entries c := Nat.cast_nonneg _
    linarith)
  have h2 : (0 : ℝ) < X.nrows := by exact_mod_cast (by omega : 0 < X.nrows)
  have h3 := Real.log_le_sub_one_of_pos h2
  linarith

/-- The parts of a TF-IDF weight in range. -/
theorem tfidf_parts (hv : 0 ≤ v) (hs0 : s.η = 0) (hs : s.u ≤ 1 / 2) (hr0 : r.η = 0) (hr : r.u ≤ 1 / 2) {Ωs : ℝ} (hΩs : 10 ^ 21 ≤ Ωs)
    (X : Coo) {x : ℝ} (hx0 : 0 < x) (hx : x ≤ 10 ^ 40) (c : Nat) (hc : Spec.columnCount X.entries c + 1 < X.nrows)
    (hn : Spec.idfError v X.nrows ≤ 1 / 2) (hnr : X.nrows ≤ 2 ^ 31) :
    |s.rnd (Real.sqrt x)| ≤ Ωs ∧ |roundIdf L r X c| ≤ 10 ^ 50 ∧ |r.rnd (s.rnd (Real.sqrt x) * roundIdf L r X c)| ≤ 10 ^ 50 := by
  have hnr' : (X.nrows : ℝ) ≤ 2 ^ 31 := by exact_mod_cast hnr
  have hp : 0 ≤ Spec.idfError v X.nrows := idfError_nonneg hv _
  obtain ⟨q1, q2⟩ := quotient_two hp hn
  obtain ⟨a1, a2⟩ := quotient_two s.u_nonneg hs
  obtain ⟨b1, b2⟩ := quotient_two r.u_nonneg hr
  have hi := idf_le hc
  have hi0 := (idf_pos hc).le
  have hq : Real.sqrt x ≤ 10 ^ 20 := by
    rw [show (10 : ℝ) ^ 20 = Real.sqrt (10 ^ 40) by rw [show (10 : ℝ) ^ 40 = (10 ^ 20) ^ 2 by norm_num, Real.sqrt_sq (by norm_num)]]
    exact Real.sqrt_le_sqrt hx
  have hq0 := Real.sqrt_nonneg x
  have nn : ∀ {G c y : ℝ}, UpTo G c y → 0 ≤ c := fun h => by
    by_contra hneg
    have := h.lower
    have h1 := h.one
    have h2 := h.nonneg
    nlinarith
  refine ⟨?_, ?_, ?_⟩
  · have h := r.u_nonneg
    have h1 := (UpTo.self hq0).round s hs0 (by linarith)
    rw [abs_of_nonneg (nn h1)]
    have h2 := h1.upper
    rw [one_mul] at h2
    have h3 : 1 / (1 - s.u) * Real.sqrt x ≤ 2 * 10 ^ 20 := mul_le_mul a2 hq hq0 (by norm_num)
    have h4 : (2 : ℝ) * 10 ^ 20 ≤ 10 ^ 21 := by norm_num
    linarith
  · have h1 := upTo_idf L hv r hr0 (by linarith) X c hc (by linarith)
    rw [abs_of_nonneg (nn h1)]
    have h2 := h1.upper
    rw [show r.factor = 1 / (1 - r.u) from rfl] at h2
    have h3 : 1 / (1 - Spec.idfError v X.nrows) * (1 / (1 - r.u)) ≤ 2 * 2 := mul_le_mul q2 b2 b1 (by norm_num)
    have h4 : 1 / (1 - Spec.idfError v X.nrows) * (1 / (1 - r.u)) * idf X c ≤ 2 * 2 * 2 ^ 31 :=
      mul_le_mul h3 (hi.trans hnr') hi0 (by norm_num)
    have h5 : (2 : ℝ) * 2 * 2 ^ 31 ≤ 10 ^ 50 := by norm_num
    linarith
  · have h1 := upTo_tfidf L hv s r hs0 (by linarith) hr0 (by linarith) X x c hc (by linarith)
    rw [abs_of_nonneg (nn h1)]
    have h2 := h1.upper
    have h3 : Spec.tfidfFactor s.u r.u v X.nrows ≤ 2 * 2 * 2 ^ 2 := by
      unfold Spec.tfidfFactor
      exact mul_le_mul (mul_le_mul a2 q2 q1 (by norm_num)) (pow_le_pow_left₀ b1 b2 2) (by positivity) (by norm_num)
    have h4 : Real.sqrt x * idf X c ≤ 10 ^ 20 * 2 ^ 31 := mul_le_mul hq (hi.trans hnr') hi0 (by norm_num)
    have h5 : Spec.tfidfFactor s.u r.u v X.nrows * (Real.sqrt x * idf X c) ≤ (2 * 2 * 2 ^ 2) * (10 ^ 20 * 2 ^ 31) :=
      mul_le_mul h3 h4 (mul_nonneg hq0 hi0) (by norm_num)
    have h6 : (2 * 2 * 2 ^ 2 : ℝ) * (10 ^ 20 * 2 ^ 31) ≤ 10 ^ 50 := by norm_num
    linarith

/-- `TFIDFRecommender.fit` in range is `fit` with weights in range. -/
theorem tfidfFit_weights (L : LogLibrary v) (s r : Rounding ℝ) (hv : 0 ≤ v) (hs0 : s.η = 0) (hs : s.u ≤ 1 / 2) (hr0 : r.η = 0) (hr : r.u ≤ 1 / 2 ^ 53)
    {Ωs : ℝ} (hΩs : 10 ^ 21 ≤ Ωs) (H : HeapImpl (ℝ × Nat) pairLt) (n K : Nat) (hK : 1 ≤ K) (hnK : n * K ≤ 2 ^ 31) (counts : SpRows ℝ)
    (hlen : counts.length ≤ 10 ^ 9) (hnd : ∀ row ∈ counts, (row.map Prod.fst).Nodup) (hM : ∀ r ∈ counts, ∀ e ∈ r, e.1 < n)
    (hz : ∀ r ∈ counts, ∀ e ∈ r, 0 < e.2) (hx : ∀ r ∈ counts, ∀ e ∈ r, e.2 ≤ 10 ^ 40) (hu : ∀ r ∈ counts, r.length + 1 < n)
    (hn : Spec.idfError v n ≤ 1 / 2) :
    ∃ W : SpRows ℝ, extTfidfFit L s r Ωs (2 ^ 1023) H n K counts = extKnnFit H r (2 ^ 1023) n K W ∧ roundTfidfFit L s r H n K counts = roundKnnFit H r n K W ∧
      W.length ≤ 10 ^ 9 ∧ (∀ row ∈ W, (row.map Prod.fst).Nodup) ∧ (∀ row ∈ W, ∀ e ∈ row, e.1 < n) ∧ ∀ row ∈ W, ∀ e ∈ row, |e.2| ≤ 10 ^ 50 := by
  have hr' : r.u ≤ 1 / 2 := hr.trans (by norm_num)
  have hnr : n ≤ 2 ^ 31 := (Nat.le_mul_of_pos_right n hK).trans hnK
  have hcol : ∀ (u : Nat) (row : List (Nat × ℝ)), counts[u]? = some row → Spec.columnCount (itemUser n counts).entries u + 1 < (itemUser n counts).nrows := by
    intro u row hrow
    rw [columnCount_itemUser n counts u row hrow]
    exact hu row (List.mem_of_getElem? hrow)
  -- the weights
  have hw : finiteEntries (extTfidf L s r Ωs (2 ^ 1023) (itemUser n counts)) = some (itemUser n (weightRows (computedTfidf L s r n counts) counts)).entries := by
    rw [itemUser_weight]
    simp only
    rw [← finiteEntries_fin]
    congr 1
    unfold extTfidf
    refine List.map_congr_left fun e he => ?_
    obtain ⟨row, hrow, hin⟩ := entries_mem he
    have hrow' := List.mem_of_getElem? hrow
    obtain ⟨h1, h2, h3⟩ := tfidf_parts (L := L) hv hs0 hs hr0 hr' hΩs (itemUser n counts) (hz row hrow' _ hin) (hx row hrow' _ hin) e.2.1
      (hcol _ row hrow) hn hnr
    have hbig : (10 : ℝ) ^ 50 ≤ 2 ^ 1023 := (pow_le_pow_right₀ (by norm_num) (by norm_num)).trans double_large
    have e1 : Ext.sqrt s Ωs (.fin e.2.2) = .fin (s.rnd (Real.sqrt e.2.2)) := by
      show (if e.2.2 < 0 then Ext.nan else Ext.ofExact s Ωs (Real.sqrt e.2.2)) = _
      rw [if_neg (not_lt.mpr (hz row hrow' _ hin).le)]
      exact ofExact_fin h1
    have e2 : extIdf L r (2 ^ 1023) (itemUser n counts) e.2.1 = .fin (roundIdf L r (itemUser n counts) e.2.1) := ofExact_fin (h2.trans hbig)
    have e3 : Ext.mul r (2 ^ 1023) (.fin (s.rnd (Real.sqrt e.2.2))) (.fin (roundIdf L r (itemUser n counts) e.2.1)) =
        .fin (computedTfidf L s r n counts e.1 e.2.1 e.2.2) := ofExact_fin (h3.trans hbig)
    rw [e1, e2, e3]
  have hW := tfidf_upTo (L := L) (s := s) (r := r) hv hs0 (by linarith) hr0 (by linarith) hu (by linarith : Spec.idfError v n < 1)
  have hrows : ∀ w ∈ weightRows (computedTfidf L s r n counts) counts, ∀ e ∈ w, e.1 < n ∧ e.2 ≠ 0 ∧ |e.2| ≤ 10 ^ 50 := by
    intro w hw e he
    obtain ⟨⟨row, u⟩, hp, rfl⟩ := List.mem_map.mp hw
    obtain ⟨x, hx1, rfl⟩ := List.mem_map.mp he
    have hrow := List.mem_zipIdx_iff_getElem?.mp hp
    have hrow' := List.mem_of_getElem? hrow
    refine ⟨hM row hrow' x hx1, ?_, ?_⟩
    · exact ((hW u row hrow x hx1).pos (mul_pos (Real.sqrt_pos.mpr (hz row hrow' x hx1)) (idf_pos (hcol u row hrow)))).ne'
    · exact (tfidf_parts (L := L) hv hs0 hs hr0 hr' hΩs (itemUser n counts) (hz row hrow' _ hx1) (hx row hrow' _ hx1) u (hcol u row hrow) hn hnr).2.2
  obtain ⟨W, e1, e2, hWl, hWnd, hWM, hWv⟩ := cosineFit_weights H r hr0 hr n K (weightRows (computedTfidf L s r n counts) counts)
    (by rw [length_weightRows]; exact hlen) (weightRows_nodup hnd) (fun w hw e he => (hrows w hw e he).1) (fun w hw e he => (hrows w hw e he).2.1)
    fun w hw e he => (hrows w hw e he).2.2
  have e4 : extTfidfFit L s r Ωs (2 ^ 1023) H n K counts = extCosineFit H r (2 ^ 1023) n K (weightRows (computedTfidf L s r n counts) counts) := by
    unfold extTfidfFit extCosineFit
    rw [hw, length_weightRows]
    rfl
  exact ⟨W, e4.trans e1, by rw [roundTfidfFit_cosine, e2], hWl, hWnd, hWM, hWv⟩

/-- **C103** (`TFIDFRecommender` in double precision; partial: row 0 as in C23).  Up to `10^9` users, every user with fewer than `n - 1` of the `n` items,
positive ratings up to `10^40` in single (`Ωs = 2^127`) or double precision, no underflow: `fit` gives finite similarities, with the guarantees of C99. -/
theorem C103_tfidf_partial (L : LogLibrary v) (s r : Rounding ℝ) (hv : 0 ≤ v) (hs0 : s.η = 0) (hs : s.u ≤ 1 / 2) (hr0 : r.η = 0) (hr : r.u ≤ 1 / 2 ^ 53)
    {Ωs : ℝ} (hΩs : 10 ^ 21 ≤ Ωs) (H : HeapImpl (ℝ × Nat) pairLt) (n K : Nat) (hK : 1 ≤ K) (hnK : n * K ≤ 2 ^ 31) (counts : SpRows ℝ)
    (hlen : counts.length ≤ 10 ^ 9) (hnd : ∀ row ∈ counts, (row.map Prod.fst).Nodup) (hM : ∀ r ∈ counts, ∀ e ∈ r, e.1 < n)
    (hz : ∀ r ∈ counts, ∀ e ∈ r, 0 < e.2) (hx : ∀ r ∈ counts, ∀ e ∈ r, e.2 ≤ 10 ^ 40) (hu : ∀ r ∈ counts, r.length + 1 < n)
    (hn : Spec.idfError v n ≤ 1 / 2) :
    ∃ sim, extTfidfFit L s r Ωs (2 ^ 1023) H n K counts = .ok (some sim) ∧ sim.length = n ∧
      ∀ i, 0 < i → i < n → ∃ row out, sim[i]? = some row ∧ (∀ p, p ∈ row ↔ p ∈ out) ∧
        Spec.ApproxRanking K (Spec.CoRated counts i)
          (fun j => Spec.cosine (Spec.column (tfidfRows n counts) i) (Spec.column (tfidfRows n counts) j))
          (fun _ => Spec.cosineFitError r.u counts.length + (Spec.tfidfFactor s.u r.u v n ^ 4 - 1)) out := by
  have hr' : r.u ≤ 1 / 2 := hr.trans (by norm_num)
  obtain ⟨sim, e, hl, h⟩ := C99_tfidf_partial L s r hv hs0 (by linarith) hr0 (by linarith) H n K hK hnK counts hnd hM hz hu (by linarith)
    counts.length (fun i => List.countP_le_length) (by linarith [growth_cosine r.u_nonneg hr hlen])
  refine ⟨sim, ?_, hl, h⟩
  obtain ⟨W, e1, e2, hWl, hWnd, hWM, hWv⟩ := tfidfFit_weights L s r hv hs0 hs hr0 hr hΩs H n K hK hnK counts hlen hnd hM hz hx hu hn
  have hbig : (10 : ℝ) ^ 10 * 10 ^ 100 ≤ 2 ^ 1023 := by
    rw [← pow_add]
    exact (pow_le_pow_right₀ (by norm_num) (by norm_num)).trans double_large
  rw [e2] at e
  rw [e1, knnFit_toExt H r _ n K hK W hWnd hWM fun i _ j =>
    (data_inRange r.u_nonneg hr (by rw [hr0]) (by rw [hr0]; norm_num) hWl hWnd hWv i j).mono hbig, e]
  rfl

/-- **C103** (`TFIDFRecommender` in double precision, from the ratings to the recommendations).  As above; `recommend` for a user row with up to `10^9`
entries up to `10^50` has finite scores, correct up to rounding for the fitted similarities. -/
theorem C103_tfidf_recommend (L : LogLibrary v) (s r : Rounding ℝ) (hv : 0 ≤ v) (hs0 : s.η = 0) (hs : s.u ≤ 1 / 2) (hr0 : r.η = 0) (hr : r.u ≤ 1 / 2 ^ 53)
    {Ωs : ℝ} (hΩs : 10 ^ 21 ≤ Ωs) (H : HeapImpl (ℝ × Nat) pairLt) (n K : Nat) (hK : 1 ≤ K) (hnK : n * K ≤ 2 ^ 31) (counts : SpRows ℝ)
    (hlen : counts.length ≤ 10 ^ 9) (hnd : ∀ row ∈ counts, (row.map Prod.fst).Nodup) (hM : ∀ r ∈ counts, ∀ e ∈ r, e.1 < n)
    (hz : ∀ r ∈ counts, ∀ e ∈ r, 0 < e.2) (hx : ∀ r ∈ counts, ∀ e ∈ r, e.2 ≤ 10 ^ 40) (hu : ∀ r ∈ counts, r.length + 1 < n)
    (hn : Spec.idfError v n ≤ 1 / 2) :
    ∃ sim, extTfidfFit L s r Ωs (2 ^ 1023) H n K counts = .ok (some sim) ∧ sim.length = n ∧
      ∀ (row : List (Nat × ℝ)), (∀ e ∈ row, e.1 < n) → row.length ≤ 10 ^ 9 → (∀ e ∈ row, |e.2| ≤ 10 ^ 50) → ∀ (k : Nat), 1 ≤ k → ∀ rm : Bool,
        ∃ out, extScorer H r (2 ^ 1023) sim (Accum.new n) row k rm = .ok (some out, Accum.new n) ∧
          Spec.ApproxRanking k (Spec.Reachable sim row) (knnScore sim row rm)
            (fun j => if rm = true ∧ j ∈ row.map Prod.fst then 0
              else Spec.sumError r.u r.η (Spec.scoreTerms sim row j) (Spec.itemMass sim row j)) out := by
  obtain ⟨W, e1, -, hWl, hWnd, hWM, hWv⟩ := tfidfFit_weights L s r hv hs0 hs hr0 hr hΩs H n K hK hnK counts hlen hnd hM hz hx hu hn
  obtain ⟨sim, e, hl, -, h⟩ := C103_double H r hr (by rw [hr0]; norm_num) n K hK hnK W hWl hWnd hWM hWv
  exact ⟨sim, e1.trans e, hl, h⟩

/-- Ratings in single precision, weights in double precision. -/
example := C103_tfidf_partial (v := 0) (exactLogs le_rfl) (freeFloat 24) (freeFloat 53) le_rfl rfl (by unfold freeFloat; norm_num) rfl
  (by unfold freeFloat; norm_num) (Ωs := 2 ^ 127) (by norm_num) insertionHeap 5 10 (by norm_num) (by norm_num) fiveItems
  (by norm_num [fiveItems]) fiveItems_ok.1 fiveItems_ok.2.1 fiveItems_ok.2.2.1
  (fiveItems_rows (by norm_num) (by norm_num)) fiveItems_ok.2.2.2.1 (by norm_num [Spec.idfError])

example := C103_tfidf_recommend (v := 0) (exactLogs le_rfl) (freeFloat 24) (freeFloat 53) le_rfl rfl (by unfold freeFloat; norm_num) rfl
  (by unfold freeFloat; norm_num) (Ωs := 2 ^ 127) (by norm_num) insertionHeap 5 10 (by norm_num) (by norm_num) fiveItems
  (by norm_num [fiveItems]) fiveItems_ok.1 fiveItems_ok.2.1 fiveItems_ok.2.2.1
  (fiveItems_rows (by norm_num) (by norm_num)) fiveItems_ok.2.2.2.1 (by norm_num [Spec.idfError])

end Implicit
