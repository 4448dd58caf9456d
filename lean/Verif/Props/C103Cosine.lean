import Verif.Model.ExtendedCosine
import Verif.Props.C103Double
/-!
# C103 for cosine similarities
-/

namespace Implicit

theorem finiteEntries_fin {R α : Type} (l : List α) (g : α → Nat × Nat × R) :
    finiteEntries (l.map fun e => ((g e).1, (g e).2.1, Ext.fin (g e).2.2)) = some (l.map g) := by
  induction l with
  | nil => rfl
  | cons e l ih => simp only [List.map_cons, finiteEntries, ih, Option.map_some]

theorem entries_col (n : Nat) {counts : SpRows ℝ} (hnd : ∀ row ∈ counts, (row.map Prod.fst).Nodup) (i : Nat) {β : Type} (g : ℝ → β) :
    (((itemUser n counts).entries.filter fun x => x.1 == i).map fun x => g (x.2.2 ^ 2)) = (colPairs counts i i).map fun p => g (p.1 * p.2) := by
  rw [colPairs_eq hnd]
  unfold itemUser
  simp only [List.map_flatMap, List.filter_flatMap]
  have : counts = counts.zipIdx.map Prod.fst := by simp
  conv_rhs => rw [this, List.flatMap_map]
  apply List.flatMap_congr
  rintro ⟨row, u⟩ hu
  have hrow : row ∈ counts := List.mem_of_getElem? (List.mem_zipIdx_iff_getElem?.mp hu)
  rw [List.filter_map, List.map_map]
  have e1 : (row.filter ((fun e : Nat × Nat × ℝ => e.1 == i) ∘ fun e => (e.1, u, e.2))) =
      row.filter fun e => e.1 == i := List.filter_congr fun _ _ => rfl
  rw [e1, filter_key (hnd row hrow) i]
  simp only [Bool.and_self]
  split_ifs
  · simp [pow_two]
  · rfl

theorem foldl_fin {r : Rounding ℝ} {Ω : ℝ} (vs : List ℝ) (s : ℝ) (h : Room r Ω s vs) :
    (vs.map Ext.fin).foldl (Ext.add r Ω) (.fin s) = .fin (vs.foldl (fun s v => r.rnd (s + v)) s) := by
  induction vs generalizing s with
  | nil => rfl
  | cons v vs ih =>
    simp only [List.map_cons, List.foldl_cons]
    have e : Ext.add r Ω (.fin s) (.fin v) = .fin (r.rnd (s + v)) := ofExact_fin h.step.fits
    rw [e]
    exact ih _ h.step

/-- The sum of squares of `normalize` in range. -/
theorem squares_fin {r : Rounding ℝ} {Ω : ℝ} (ps : List (ℝ × ℝ)) (h : Spec.SumInRange r.u r.η Ω ps.length (ps.map fun p => |p.1 * p.2|).sum) :
    (ps.map fun p => Ext.ofExact r Ω (p.1 * p.2)).foldl (Ext.add r Ω) (.fin 0) = .fin (roundSum r ps) := by
  have e : (ps.map fun p => Ext.ofExact r Ω (p.1 * p.2)) = (ps.map fun p => r.rnd (p.1 * p.2)).map Ext.fin := by
    rw [List.map_map]
    exact List.map_congr_left fun p hp => ofExact_fin (range_product h hp)
  rw [e]
  exact foldl_fin _ 0 (range_room h)

theorem cell_le_length {counts : SpRows ℝ} {row : List (Nat × ℝ)} (hrow : row ∈ counts) (i : Nat) :
    |Spec.cell row i| ≤ Spec.length (Spec.column counts i) := by
  obtain ⟨u, hu, rfl⟩ := List.mem_iff_getElem.mp hrow
  unfold Spec.length
  apply Real.abs_le_sqrt
  exact Finset.single_le_sum (f := fun j => Spec.column counts i j ^ 2) (fun j _ => sq_nonneg _) (Finset.mem_univ ⟨u, hu⟩)

theorem growth_cosine {u : ℝ} (hu0 : 0 ≤ u) (hu : u ≤ 1 / 2 ^ 53) {m : Nat} (hm : m ≤ 10 ^ 9) : (1 + u) ^ (m + 2) ≤ 11 / 10 := by
  have hm' : (m : ℝ) ≤ 10 ^ 9 := by exact_mod_cast hm
  have h1 : ((m + 2 : Nat) : ℝ) * u ≤ (10 ^ 9 + 2) * (1 / 2 ^ 53) := by
    push_cast
    exact mul_le_mul (by linarith) hu hu0 (by norm_num)
  have h2 := pow_growth hu0 (m + 2) (h1.trans (by norm_num))
  have : (2 : ℝ) * ((10 ^ 9 + 2) * (1 / 2 ^ 53)) ≤ 1 / 10 := by norm_num
  linarith

/-- No weight of `normalize` is above 2. -/
theorem cosineWeight_le (r : Rounding ℝ) (h0 : r.η = 0) (hu : r.u ≤ 1 / 2 ^ 53) {counts : SpRows ℝ} (hlen : counts.length ≤ 10 ^ 9)
    (hnd : ∀ row ∈ counts, (row.map Prod.fst).Nodup) (i : Nat) (hne : Spec.column counts i ≠ 0) {c : ℝ}
    (hc : |c| ≤ Spec.length (Spec.column counts i)) : 0 < roundLength r counts i ∧ |r.rnd (c / roundLength r counts i)| ≤ 2 := by
  have hun := r.u_nonneg
  have hg := growth_cosine hun hu hlen
  have hg1 : 1 ≤ (1 + r.u) ^ (counts.length + 2) := one_le_pow₀ (by linarith)
  have hL := length_pos hne
  have hl := roundLength_spec r h0 hnd i counts.length List.countP_le_length (by linarith) hne
  generalize (1 + r.u) ^ (counts.length + 2) = g at hg hg1 hl
  constructor
  · have := (abs_le.mp hl).1
    nlinarith
  have hq := quotient_step (p := c) (P := c) (A := |c|) (F := 1) (by simp) le_rfl hL hl (by linarith) le_rfl hg1
  have h1 := round_step_zero r h0 hq.1 hq.2.1 hq.2.2
  have h2 : |c| / Spec.length (Spec.column counts i) ≤ 1 := (div_le_one hL).mpr hc
  have h3 : 0 ≤ |c| / Spec.length (Spec.column counts i) := div_nonneg (abs_nonneg _) hL.le
  have h4 : 1 / (2 - g) * (1 + r.u) ≤ 2 := by
    rw [div_mul_eq_mul_div, one_mul, div_le_iff₀ (by linarith)]
    have : (1 : ℝ) / 2 ^ 53 ≤ 1 / 2 := by norm_num
    linarith
  have h5 := (abs_sub_abs_le_abs_sub _ _).trans h1
  have h6 := hq.2.1
  have h7 : 1 ≤ 1 / (2 - g) * (1 + r.u) := by nlinarith [hq.2.2]
  nlinarith

/-- `normalize` in range. -/
theorem normalize_toExt (r : Rounding ℝ) (h0 : r.η = 0) (hu : r.u ≤ 1 / 2 ^ 53) (n : Nat) {counts : SpRows ℝ} (hlen : counts.length ≤ 10 ^ 9)
    (hnd : ∀ row ∈ counts, (row.map Prod.fst).Nodup) (hz : ∀ row ∈ counts, ∀ e ∈ row, e.2 ≠ 0) (hv : ∀ row ∈ counts, ∀ e ∈ row, |e.2| ≤ 10 ^ 50) :
    finiteEntries (extNormalize r (2 ^ 1023) (itemUser n counts)) = some (roundNormalize r (itemUser n counts)).entries := by
  have hun := r.u_nonneg
  have hbig : (10 : ℝ) ^ 10 * 10 ^ 100 ≤ 2 ^ 1023 := by
    rw [← pow_add]
    exact (pow_le_pow_right₀ (by norm_num) (by norm_num)).trans double_large
  unfold roundNormalize
  rw [← finiteEntries_fin]
  congr 1
  unfold extNormalize
  refine List.map_congr_left fun e he => ?_
  simp only
  rw [roundBincount_eq r n hnd, entries_col n hnd e.1 fun x => Ext.ofExact r (2 ^ 1023) x]
  have hr : Spec.SumInRange r.u r.η (10 ^ 10 * 10 ^ 100) (colPairs counts e.1 e.1).length
      ((colPairs counts e.1 e.1).map fun p => |p.1 * p.2|).sum := by
    rw [colPairs_length hnd, colPairs_map hnd (fun x => |x|) abs_zero]
    exact data_inRange hun hu (by rw [h0]) (by rw [h0]; norm_num) hlen hnd hv e.1 e.1
  rw [squares_fin _ (hr.mono hbig)]
  have hS := roundSum_le r _ hr
  -- the entry
  obtain ⟨row, hrow, hin⟩ : ∃ row ∈ counts, (e.1, e.2.2) ∈ row := by
    unfold itemUser at he
    obtain ⟨⟨row, u⟩, hp, hx⟩ := List.mem_flatMap.mp he
    obtain ⟨x, hx1, rfl⟩ := List.mem_map.mp hx
    exact ⟨row, List.mem_of_getElem? (List.mem_zipIdx_iff_getElem?.mp hp), hx1⟩
  have hne := column_ne_zero hnd hz hrow ⟨_, hin⟩
  have hc : |e.2.2| ≤ Spec.length (Spec.column counts e.1) := by
    have := cell_le_length hrow e.1
    unfold Spec.cell at this
    rwa [sumAt_of_mem (hnd _ hrow) hin] at this
  obtain ⟨hp, hw⟩ := cosineWeight_le r h0 hu hlen hnd e.1 hne hc
  unfold roundLength at hp hw
  generalize roundSum r (colPairs counts e.1 e.1) = S at hS hp hw
  have hS0 : 0 ≤ S := by
    by_contra hneg
    rw [Real.sqrt_eq_zero_of_nonpos (not_le.mp hneg).le, rnd_zero r h0] at hp
    exact lt_irrefl _ hp
  have hsq : Real.sqrt S ≤ 10 ^ 110 := by
    apply Real.sqrt_le_iff.mpr
    refine ⟨by norm_num, (le_abs_self S).trans (hS.trans (by norm_num))⟩
  have hrs : |r.rnd (Real.sqrt S)| ≤ 2 ^ 1023 := by
    have h1 := r.err (Real.sqrt S)
    rw [h0, add_zero, abs_of_nonneg (Real.sqrt_nonneg S)] at h1
    have h2 : r.u * Real.sqrt S ≤ 1 * Real.sqrt S := mul_le_mul_of_nonneg_right (hu.trans (by norm_num)) (Real.sqrt_nonneg S)
    have h3 := (abs_le.mp h1).2
    rw [abs_of_pos hp]
    have h4 : r.rnd (Real.sqrt S) ≤ 10 ^ 111 := by
      have : (2 : ℝ) * 10 ^ 110 ≤ 10 ^ 111 := by norm_num
      linarith
    exact h4.trans ((pow_le_pow_right₀ (by norm_num) (by norm_num)).trans double_large)
  have e1 : Ext.sqrt r (2 ^ 1023) (.fin S) = .fin (r.rnd (Real.sqrt S)) := by
    show (if S < 0 then Ext.nan else Ext.ofExact r (2 ^ 1023) (Real.sqrt S)) = _
    rw [if_neg (not_lt.mpr hS0)]
    exact ofExact_fin hrs
  have e2 : Ext.div r (2 ^ 1023) (.fin e.2.2) (.fin (r.rnd (Real.sqrt S))) = .fin (r.rnd (e.2.2 / r.rnd (Real.sqrt S))) := by
    show (if r.rnd (Real.sqrt S) = 0 then _ else Ext.ofExact r (2 ^ 1023) (e.2.2 / r.rnd (Real.sqrt S))) = _
    rw [if_neg hp.ne']
    refine ofExact_fin (hw.trans ?_)
    calc (2 : ℝ) = 2 ^ 1 := (pow_one _).symm
      _ ≤ 2 ^ 1023 := pow_le_pow_right₀ (by norm_num) (by norm_num)
  rw [e1, e2]

/-- `CosineRecommender.fit` in range is `fit` with weights in range. -/
theorem cosineFit_weights (H : HeapImpl (ℝ × Nat) pairLt) (r : Rounding ℝ) (h0 : r.η = 0) (hu : r.u ≤ 1 / 2 ^ 53) (n K : Nat)
    (counts : SpRows ℝ) (hlen : counts.length ≤ 10 ^ 9) (hnd : ∀ row ∈ counts, (row.map Prod.fst).Nodup)
    (hM : ∀ r ∈ counts, ∀ e ∈ r, e.1 < n) (hz : ∀ r ∈ counts, ∀ e ∈ r, e.2 ≠ 0) (hv : ∀ row ∈ counts, ∀ e ∈ row, |e.2| ≤ 10 ^ 50) :
    ∃ W : SpRows ℝ, extCosineFit H r (2 ^ 1023) n K counts = extKnnFit H r (2 ^ 1023) n K W ∧ roundCosineFit H r n K counts = roundKnnFit H r n K W ∧
      W.length ≤ 10 ^ 9 ∧ (∀ row ∈ W, (row.map Prod.fst).Nodup) ∧ (∀ row ∈ W, ∀ e ∈ row, e.1 < n) ∧ ∀ row ∈ W, ∀ e ∈ row, |e.2| ≤ 10 ^ 50 := by
  unfold extCosineFit roundCosineFit
  rw [normalize_toExt r h0 hu n hlen hnd hz hv]
  have e3 : (⟨n, (roundNormalize r (itemUser n counts)).entries⟩ : Coo) = roundNormalize r (itemUser n counts) := rfl
  simp only
  rw [e3]
  rw [roundNormalize_rows r n hnd]
  set W := counts.map fun row => coalesce (row.map fun e => (e.1, r.rnd (e.2 / roundLength r counts e.1))) with hW
  have hstored : ∀ row i, Spec.Stored (coalesce (row.map fun e => (e.1, r.rnd (e.2 / roundLength r counts e.1)))) i ↔ Spec.Stored row i :=
    fun row i => (stored_coalesce _ i).trans (stored_weight (fun i v => r.rnd (v / roundLength r counts i)) row i)
  have hWnd : ∀ row ∈ W, (row.map Prod.fst).Nodup := by
    intro row hrow
    obtain ⟨r', -, rfl⟩ := List.mem_map.mp hrow
    exact (coalesce_sorted _).imp fun h => Nat.ne_of_lt h
  have hWM : ∀ row ∈ W, ∀ e ∈ row, e.1 < n := by
    intro w hw e he
    obtain ⟨row, hrow, rfl⟩ := List.mem_map.mp hw
    obtain ⟨v, hv⟩ := (hstored row e.1).mp ⟨e.2, he⟩
    exact hM row hrow (e.1, v) hv
  have hWv : ∀ row ∈ W, ∀ e ∈ row, |e.2| ≤ 10 ^ 50 := by
    intro w hw e he
    obtain ⟨row, hrow, rfl⟩ := List.mem_map.mp hw
    have hs := (hstored row e.1).mp ⟨e.2, he⟩
    have h1 := cell_rounded h0 (roundLength r counts) (hnd row hrow) e.1
    unfold Spec.cell at h1
    rw [sumAt_of_mem ((coalesce_sorted _).imp fun h => Nat.ne_of_lt h) he] at h1
    rw [h1]
    exact (cosineWeight_le r h0 hu hlen hnd e.1 (column_ne_zero hnd hz hrow hs) (cell_le_length hrow e.1)).2.trans (by norm_num)
  exact ⟨W, rfl, rfl, by rw [hW, List.length_map]; exact hlen, hWnd, hWM, hWv⟩

/-- **C103** (`CosineRecommender` in double precision; partial: row 0 as in C23).  Up to `10^9` users, non-zero stored values up to `10^50`, no underflow:
`fit` gives finite similarities, with the guarantees of C83. -/
theorem C103_cosine_partial (H : HeapImpl (ℝ × Nat) pairLt) (r : Rounding ℝ) (h0 : r.η = 0) (hu : r.u ≤ 1 / 2 ^ 53) (n K : Nat) (hK : 1 ≤ K)
    (hnK : n * K ≤ 2 ^ 31) (counts : SpRows ℝ) (hlen : counts.length ≤ 10 ^ 9) (hnd : ∀ row ∈ counts, (row.map Prod.fst).Nodup)
    (hM : ∀ r ∈ counts, ∀ e ∈ r, e.1 < n) (hz : ∀ r ∈ counts, ∀ e ∈ r, e.2 ≠ 0) (hv : ∀ row ∈ counts, ∀ e ∈ row, |e.2| ≤ 10 ^ 50) :
    ∃ sim, extCosineFit H r (2 ^ 1023) n K counts = .ok (some sim) ∧ sim.length = n ∧
      ∀ i, 0 < i → i < n → ∃ row out, sim[i]? = some row ∧ (∀ p, p ∈ row ↔ p ∈ out) ∧
        Spec.ApproxRanking K (Spec.CoRated counts i) (fun j => Spec.cosine (Spec.column counts i) (Spec.column counts j))
          (fun _ => Spec.cosineFitError r.u counts.length) out := by
  have hun := r.u_nonneg
  have hbig : (10 : ℝ) ^ 10 * 10 ^ 100 ≤ 2 ^ 1023 := by
    rw [← pow_add]
    exact (pow_le_pow_right₀ (by norm_num) (by norm_num)).trans double_large
  obtain ⟨sim, e, hl, h⟩ := C83_cosine_partial H r h0 n K hK hnK counts hnd hM hz counts.length (fun i => List.countP_le_length)
    (by linarith [growth_cosine hun hu hlen])
  refine ⟨sim, ?_, hl, h⟩
  obtain ⟨W, e1, e2, hWl, hWnd, hWM, hWv⟩ := cosineFit_weights H r h0 hu n K counts hlen hnd hM hz hv
  rw [e1, knnFit_toExt H r _ n K hK W hWnd hWM fun i _ j =>
    (data_inRange hun hu (by rw [h0]) (by rw [h0]; norm_num) hWl hWnd hWv i j).mono hbig, ← e2, e]
  rfl

/-- **C103** (`CosineRecommender` in double precision, from the ratings to the recommendations).  As above; `recommend` for a user row with up to `10^9`
entries up to `10^50` has finite scores, correct up to rounding for the fitted similarities. -/
theorem C103_cosine_recommend (H : HeapImpl (ℝ × Nat) pairLt) (r : Rounding ℝ) (h0 : r.η = 0) (hu : r.u ≤ 1 / 2 ^ 53) (n K : Nat) (hK : 1 ≤ K)
    (hnK : n * K ≤ 2 ^ 31) (counts : SpRows ℝ) (hlen : counts.length ≤ 10 ^ 9) (hnd : ∀ row ∈ counts, (row.map Prod.fst).Nodup)
    (hM : ∀ r ∈ counts, ∀ e ∈ r, e.1 < n) (hz : ∀ r ∈ counts, ∀ e ∈ r, e.2 ≠ 0) (hv : ∀ row ∈ counts, ∀ e ∈ row, |e.2| ≤ 10 ^ 50) :
    ∃ sim, extCosineFit H r (2 ^ 1023) n K counts = .ok (some sim) ∧ sim.length = n ∧
      ∀ (row : List (Nat × ℝ)), (∀ e ∈ row, e.1 < n) → row.length ≤ 10 ^ 9 → (∀ e ∈ row, |e.2| ≤ 10 ^ 50) → ∀ (k : Nat), 1 ≤ k → ∀ rm : Bool,
        ∃ out, extScorer H r (2 ^ 1023) sim (Accum.new n) row k rm = .ok (some out, Accum.new n) ∧
          Spec.ApproxRanking k (Spec.Reachable sim row) (knnScore sim row rm)
            (fun j => if rm = true ∧ j ∈ row.map Prod.fst then 0
              else Spec.sumError r.u r.η (Spec.scoreTerms sim row j) (Spec.itemMass sim row j)) out := by
  obtain ⟨W, e1, -, hWl, hWnd, hWM, hWv⟩ := cosineFit_weights H r h0 hu n K counts hlen hnd hM hz hv
  obtain ⟨sim, e, hl, -, h⟩ := C103_double H r hu (by rw [h0]; norm_num) n K hK hnK W hWl hWnd hWM hWv
  exact ⟨sim, e1.trans e, hl, h⟩

theorem exampleRatings_nonzero : ∀ row ∈ exampleRatings, ∀ e ∈ row, e.2 ≠ 0 := by
  intro row hrow e he
  simp only [exampleRatings, List.mem_cons, List.not_mem_nil, or_false] at hrow
  rcases hrow with rfl | rfl <;> simp only [List.mem_cons, List.not_mem_nil, or_false] at he <;> rcases he with rfl | rfl <;> norm_num

example := C103_cosine_partial insertionHeap (freeFloat 53) rfl (by unfold freeFloat; norm_num) 3 2 (by norm_num) (by norm_num) exampleRatings
  exampleRatings_length exampleRatings_nodup exampleRatings_items exampleRatings_nonzero exampleRatings_values

example := C103_cosine_recommend insertionHeap (freeFloat 53) rfl (by unfold freeFloat; norm_num) 3 2 (by norm_num) (by norm_num) exampleRatings
  exampleRatings_length exampleRatings_nodup exampleRatings_items exampleRatings_nonzero exampleRatings_values

end Implicit
