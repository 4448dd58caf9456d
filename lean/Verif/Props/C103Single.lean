import Verif.Props.C83Single
/-!
# C103 for the cosine of ratings in single precision
-/

namespace Implicit

variable {s r : Rounding ℝ}

theorem singleLength_two {a b : ℝ} (ha0 : 0 ≤ a) (ha : a ≤ 1 / 4) (hb0 : 0 ≤ b) (hb : b ≤ 1 / 2 ^ 53) {m : Nat} (hm : m ≤ 10 ^ 9) :
    Spec.singleLength a b m < 2 := by
  have hm' : (m : ℝ) ≤ 10 ^ 9 := by exact_mod_cast hm
  have h1 : 1 / (1 - b) ≤ 1 + 2 * b := by
    have : b ≤ 1 / 2 := hb.trans (by norm_num)
    rw [div_le_iff₀ (by linarith)]
    nlinarith
  have h0 : 0 ≤ 1 / (1 - b) := div_nonneg zero_le_one (by linarith [hb.trans (show (1 : ℝ) / 2 ^ 53 ≤ 1 by norm_num)])
  have h2 : ((m + 1 : Nat) : ℝ) * (2 * b) ≤ (10 ^ 9 + 1) * (2 * (1 / 2 ^ 53)) := by
    push_cast
    exact mul_le_mul (by linarith) (by linarith) (by linarith) (by norm_num)
  have h3 := pow_growth (u := 2 * b) (by linarith) (m + 1) (h2.trans (by norm_num))
  have h4 : (1 / (1 - b)) ^ (m + 1) ≤ 11 / 10 := by
    refine (pow_le_pow_left₀ h0 h1 _).trans (h3.trans ?_)
    have : 2 * ((10 ^ 9 + 1) * (2 * (1 / 2 ^ 53))) ≤ (1 : ℝ) / 10 := by norm_num
    linarith
  have h5 : 1 / (1 - a) ≤ 4 / 3 := by
    rw [div_le_iff₀ (by linarith)]
    linarith
  unfold Spec.singleLength
  calc 1 / (1 - a) * (1 / (1 - b)) ^ (m + 1) ≤ 4 / 3 * (11 / 10) := mul_le_mul h5 h4 (pow_nonneg h0 _) (by norm_num)
    _ < 2 := by norm_num

/-- No weight is above 4. -/
theorem singleWeight_le (hs0 : s.η = 0) (hs : s.u ≤ 1 / 4) (hr0 : r.η = 0) (hr : r.u ≤ 1 / 2 ^ 53) (n : Nat) {counts : SpRows ℝ}
    (hlen : counts.length ≤ 10 ^ 9) (hnd : ∀ row ∈ counts, (row.map Prod.fst).Nodup) (i : Nat) (hne : Spec.column counts i ≠ 0) {c : ℝ}
    (hc : |c| ≤ Spec.length (Spec.column counts i)) :
    0 < singleLength s r n counts i ∧ singleLength s r n counts i ≤ 2 * Spec.length (Spec.column counts i) ∧ |r.rnd (c / singleLength s r n counts i)| ≤ 4 := by
  have hr' : r.u ≤ 1 := hr.trans (by norm_num)
  have hr2 : r.u < 1 := lt_of_le_of_lt hr (by norm_num)
  have hL := length_pos hne
  have h := (upTo_singleLength hs0 (by linarith) hr0 hr2 n hnd i (m := counts.length) List.countP_le_length).2
  have hG := singleLength_two s.u_nonneg hs r.u_nonneg hr hlen
  have hpos := h.pos hL
  have h1 := h.lower
  have h2 := h.upper
  generalize Spec.singleLength s.u r.u counts.length = g at *
  generalize singleLength s r n counts i = d at *
  refine ⟨hpos, h2.trans (mul_le_mul_of_nonneg_right hG.le hL.le), ?_⟩
  have h3 : |c / d| ≤ 2 := by
    rw [abs_div, abs_of_pos hpos, div_le_iff₀ hpos]
    nlinarith
  have h4 := r.err (c / d)
  rw [hr0, add_zero] at h4
  have h5 := abs_sub_abs_le_abs_sub (r.rnd (c / d)) (c / d)
  have h6 : r.u * |c / d| ≤ 1 * |c / d| := mul_le_mul_of_nonneg_right hr' (abs_nonneg _)
  linarith

/-- `normalize` in range. -/
theorem singleNormalize_toExt (hs0 : s.η = 0) (hs : s.u ≤ 1 / 4) (hr0 : r.η = 0) (hr : r.u ≤ 1 / 2 ^ 53) {Ωs : ℝ} (hΩs : 10 ^ 37 ≤ Ωs) (n : Nat)
    {counts : SpRows ℝ} (hlen : counts.length ≤ 10 ^ 9) (hnd : ∀ row ∈ counts, (row.map Prod.fst).Nodup) (hz : ∀ row ∈ counts, ∀ e ∈ row, e.2 ≠ 0)
    (hv : ∀ row ∈ counts, ∀ e ∈ row, |e.2| ≤ 10 ^ 18) :
    finiteEntries (extSingleNormalize s r Ωs (2 ^ 1023) (itemUser n counts)) = some (singleNormalize s r (itemUser n counts)).entries := by
  have hr2 : r.u < 1 := lt_of_le_of_lt hr (by norm_num)
  have hbig : (10 : ℝ) ^ 50 ≤ 2 ^ 1023 := (pow_le_pow_right₀ (by norm_num) (by norm_num)).trans double_large
  have hent : ∀ e ∈ (itemUser n counts).entries, e.2.2 ^ 2 ≤ 10 ^ 36 := by
    intro e he
    unfold itemUser at he
    obtain ⟨⟨row, u⟩, hp, hx⟩ := List.mem_flatMap.mp he
    obtain ⟨x, hx1, rfl⟩ := List.mem_map.mp hx
    have := hv row (List.mem_of_getElem? (List.mem_zipIdx_iff_getElem?.mp hp)) x hx1
    rw [← sq_abs]
    calc |x.2| ^ 2 ≤ (10 ^ 18) ^ 2 := pow_le_pow_left₀ (abs_nonneg _) this 2
      _ = 10 ^ 36 := by norm_num
  have hsq : ∀ x : ℝ, UpTo s.factor (s.rnd (x ^ 2)) (x ^ 2) := fun x =>
    ((UpTo.self (sq_nonneg x)).round s hs0 (by linarith)).mono (by rw [one_mul]; exact le_of_eq rfl)
  have hsf : s.factor ≤ 2 := by
    unfold Rounding.factor
    rw [div_le_iff₀ (by linarith)]
    linarith
  have hsq1 : ∀ x : ℝ, x ^ 2 ≤ 10 ^ 36 → |s.rnd (x ^ 2)| ≤ 2 * 10 ^ 36 := by
    intro x hx
    rw [abs_of_nonneg (hsq x).nonneg']
    exact (hsq x).upper.trans (mul_le_mul hsf hx (sq_nonneg x) (by norm_num))
  unfold singleNormalize
  rw [← finiteEntries_fin]
  congr 1
  unfold extSingleNormalize
  refine List.map_congr_left fun e he => ?_
  simp only
  -- the sum of squares
  set E := (itemUser n counts).entries.filter fun x => x.1 == e.1 with hE
  have hElen : (E.length : ℝ) ≤ 10 ^ 9 := by
    rw [hE, squares_length n hnd]
    exact_mod_cast List.countP_le_length.trans hlen
  have hsum : (E.map fun x => Ext.ofExact s Ωs (x.2.2 ^ 2)).foldl (Ext.add r (2 ^ 1023)) (.fin 0) =
      .fin (roundBincount r ((itemUser n counts).entries.map fun e => (e.1, s.rnd (e.2.2 ^ 2))) e.1) := by
    have e1 : (E.map fun x => Ext.ofExact s Ωs (x.2.2 ^ 2)) = (E.map fun x => s.rnd (x.2.2 ^ 2)).map Ext.fin := by
      rw [List.map_map]
      refine List.map_congr_left fun x hx => ofExact_fin ((hsq1 _ (hent x (List.mem_filter.mp hx).1)).trans (le_trans (by norm_num) hΩs))
    rw [e1, singleBincount_eq, ← hE]
    refine foldl_fin _ 0 ?_
    unfold Room
    rw [hr0, mul_zero, add_zero, abs_zero, zero_add, List.length_map, List.map_map]
    have h1 : (1 + r.u) ^ E.length ≤ 11 / 10 := by
      refine (pow_le_pow_right₀ (by linarith [r.u_nonneg]) (by omega : E.length ≤ E.length + 2)).trans (growth_cosine r.u_nonneg hr ?_)
      exact_mod_cast hElen
    have h2 := List.sum_le_card_nsmul (E.map (abs ∘ fun x => s.rnd (x.2.2 ^ 2))) (2 * 10 ^ 36) (by
      intro y hy
      obtain ⟨x, hx, rfl⟩ := List.mem_map.mp hy
      exact hsq1 _ (hent x (List.mem_filter.mp hx).1))
    rw [nsmul_eq_mul, List.length_map] at h2
    have h3 : (E.length : ℝ) * (2 * 10 ^ 36) ≤ 10 ^ 9 * (2 * 10 ^ 36) := mul_le_mul_of_nonneg_right hElen (by norm_num)
    have h4 : 0 ≤ (E.map (abs ∘ fun x => s.rnd (x.2.2 ^ 2))).sum := List.sum_nonneg (by
      intro y hy
      obtain ⟨x, -, rfl⟩ := List.mem_map.mp hy
      exact abs_nonneg _)
    have h5 : (1 + r.u) ^ E.length * (E.map (abs ∘ fun x => s.rnd (x.2.2 ^ 2))).sum ≤ 11 / 10 * (10 ^ 9 * (2 * 10 ^ 36)) :=
      mul_le_mul h1 (h2.trans h3) h4 (by norm_num)
    have h6 : (11 / 10 * (10 ^ 9 * (2 * 10 ^ 36)) : ℝ) ≤ 10 ^ 50 := by norm_num
    exact (h5.trans h6).trans hbig
  rw [hsum]
  -- the entry
  obtain ⟨row, hrow, hin⟩ : ∃ row ∈ counts, (e.1, e.2.2) ∈ row := by
    unfold itemUser at he
    obtain ⟨⟨row, u⟩, hp, hx⟩ := List.mem_flatMap.mp he
    obtain ⟨x, hx1, rfl⟩ := List.mem_map.mp hx
    exact ⟨row, List.mem_of_getElem? (List.mem_zipIdx_iff_getElem?.mp hp), hx1⟩
  have hne := column_ne_zero hnd hz hrow ⟨_, hin⟩
  have hc : |e.2.2| ≤ Spec.length (Spec.column counts e.1) := by
    have := cell_le_length hrow e.1
    unfold Spec.cell at this
    rwa [sumAt_of_mem (hnd _ hrow) hin] at this
  have hLb : Spec.length (Spec.column counts e.1) ≤ 10 ^ 23 := by
    have h1 := squares_sum n hnd e.1
    rw [← hE] at h1
    have h2 := List.sum_le_card_nsmul (E.map fun x => x.2.2 ^ 2) (10 ^ 36) (by
      intro y hy
      obtain ⟨x, hx, rfl⟩ := List.mem_map.mp hy
      exact hent x (List.mem_filter.mp hx).1)
    rw [nsmul_eq_mul, List.length_map, h1] at h2
    have h3 : (E.length : ℝ) * 10 ^ 36 ≤ 10 ^ 9 * 10 ^ 36 := mul_le_mul_of_nonneg_right hElen (by norm_num)
    have hL0 : 0 ≤ Spec.length (Spec.column counts e.1) := Real.sqrt_nonneg _
    refine (pow_le_pow_iff_left₀ hL0 (by norm_num) two_ne_zero).mp ?_
    exact (h2.trans h3).trans (by norm_num)
  obtain ⟨hp, hle, hw⟩ := singleWeight_le hs0 hs hr0 hr n hlen hnd e.1 hne hc
  have hS0 := (upTo_singleLength hs0 (by linarith) hr0 hr2 n hnd e.1 (m := counts.length) List.countP_le_length).1.nonneg'
  unfold singleLength at hp hle hw
  generalize roundBincount r ((itemUser n counts).entries.map fun e => (e.1, s.rnd (e.2.2 ^ 2))) e.1 = S at hp hle hw hS0
  have e1 : Ext.sqrt r (2 ^ 1023) (.fin S) = .fin (r.rnd (Real.sqrt S)) := by
    show (if S < 0 then Ext.nan else Ext.ofExact r (2 ^ 1023) (Real.sqrt S)) = _
    rw [if_neg (not_lt.mpr hS0)]
    refine ofExact_fin ?_
    rw [abs_of_pos hp]
    have h6 : (2 : ℝ) * 10 ^ 23 ≤ 10 ^ 50 := by norm_num
    exact (hle.trans ((mul_le_mul_of_nonneg_left hLb (by norm_num)).trans h6)).trans hbig
  have e2 : Ext.div r (2 ^ 1023) (.fin e.2.2) (.fin (r.rnd (Real.sqrt S))) = .fin (r.rnd (e.2.2 / r.rnd (Real.sqrt S))) := by
    show (if r.rnd (Real.sqrt S) = 0 then _ else Ext.ofExact r (2 ^ 1023) (e.2.2 / r.rnd (Real.sqrt S))) = _
    rw [if_neg hp.ne']
    exact ofExact_fin (hw.trans (le_trans (by norm_num) hbig))
  rw [e1, e2]

/-- `CosineRecommender.fit` in range is `fit` with weights in range. -/
theorem singleFit_weights (H : HeapImpl (ℝ × Nat) pairLt) (s r : Rounding ℝ) (hs0 : s.η = 0) (hs : s.u ≤ 1 / 4) (hr0 : r.η = 0) (hr : r.u ≤ 1 / 2 ^ 53)
    {Ωs : ℝ} (hΩs : 10 ^ 37 ≤ Ωs) (n K : Nat) (counts : SpRows ℝ) (hlen : counts.length ≤ 10 ^ 9)
    (hnd : ∀ row ∈ counts, (row.map Prod.fst).Nodup) (hM : ∀ r ∈ counts, ∀ e ∈ r, e.1 < n) (hz : ∀ r ∈ counts, ∀ e ∈ r, e.2 ≠ 0)
    (hv : ∀ row ∈ counts, ∀ e ∈ row, |e.2| ≤ 10 ^ 18) :
    ∃ W : SpRows ℝ, extSingleFit H s r Ωs (2 ^ 1023) n K counts = extKnnFit H r (2 ^ 1023) n K W ∧
      singleCosineFit H s r n K counts = roundKnnFit H r n K W ∧
      W.length ≤ 10 ^ 9 ∧ (∀ row ∈ W, (row.map Prod.fst).Nodup) ∧ (∀ row ∈ W, ∀ e ∈ row, e.1 < n) ∧ ∀ row ∈ W, ∀ e ∈ row, |e.2| ≤ 10 ^ 50 := by
  unfold extSingleFit singleCosineFit
  rw [singleNormalize_toExt hs0 hs hr0 hr hΩs n hlen hnd hz hv]
  have e3 : (⟨n, (singleNormalize s r (itemUser n counts)).entries⟩ : Coo) = singleNormalize s r (itemUser n counts) := rfl
  simp only
  rw [e3, singleNormalize_rows s r n counts]
  have hst : ∀ row i, Spec.Stored (coalesce (row.map fun e => (e.1, r.rnd (e.2 / singleLength s r n counts e.1)))) i ↔ Spec.Stored row i :=
    fun row i => (stored_coalesce _ i).trans (stored_weight (fun i v => r.rnd (v / singleLength s r n counts i)) row i)
  refine ⟨_, rfl, rfl, by rw [List.length_map]; exact hlen, ?_, ?_, ?_⟩
  · intro row hrow
    obtain ⟨r', -, rfl⟩ := List.mem_map.mp hrow
    exact (coalesce_sorted _).imp fun h => Nat.ne_of_lt h
  · intro w hw e he
    obtain ⟨row, hrow, rfl⟩ := List.mem_map.mp hw
    obtain ⟨v, hv⟩ := (hst row e.1).mp ⟨e.2, he⟩
    exact hM row hrow (e.1, v) hv
  · intro w hw e he
    obtain ⟨row, hrow, rfl⟩ := List.mem_map.mp hw
    have hs' := (hst row e.1).mp ⟨e.2, he⟩
    have h1 := cell_rounded hr0 (singleLength s r n counts) (hnd row hrow) e.1
    unfold Spec.cell at h1
    rw [sumAt_of_mem ((coalesce_sorted _).imp fun h => Nat.ne_of_lt h) he] at h1
    rw [h1]
    exact (singleWeight_le hs0 hs hr0 hr n hlen hnd e.1 (column_ne_zero hnd hz hrow hs') (cell_le_length hrow e.1)).2.2.trans (by norm_num)

/-- **C103** (`CosineRecommender` for ratings in single precision, `Ωs = 2^127`; partial: row 0 as in C23).  Up to `10^9` users, non-zero stored values up to
`10^18`, no underflow: `fit` gives finite similarities, with the guarantees of C83. -/
theorem C103_single_partial (H : HeapImpl (ℝ × Nat) pairLt) (s r : Rounding ℝ) (hs0 : s.η = 0) (hs : s.u ≤ 1 / 4) (hr0 : r.η = 0) (hr : r.u ≤ 1 / 2 ^ 53)
    {Ωs : ℝ} (hΩs : 10 ^ 37 ≤ Ωs) (n K : Nat) (hK : 1 ≤ K) (hnK : n * K ≤ 2 ^ 31) (counts : SpRows ℝ) (hlen : counts.length ≤ 10 ^ 9)
    (hnd : ∀ row ∈ counts, (row.map Prod.fst).Nodup) (hM : ∀ r ∈ counts, ∀ e ∈ r, e.1 < n) (hz : ∀ r ∈ counts, ∀ e ∈ r, e.2 ≠ 0)
    (hv : ∀ row ∈ counts, ∀ e ∈ row, |e.2| ≤ 10 ^ 18) :
    ∃ sim, extSingleFit H s r Ωs (2 ^ 1023) n K counts = .ok (some sim) ∧ sim.length = n ∧
      ∀ i, 0 < i → i < n → ∃ row out, sim[i]? = some row ∧ (∀ p, p ∈ row ↔ p ∈ out) ∧
        Spec.ApproxRanking K (Spec.CoRated counts i) (fun j => Spec.cosine (Spec.column counts i) (Spec.column counts j))
          (fun _ => Spec.singleCosineError s.u r.u counts.length) out := by
  have hbig : (10 : ℝ) ^ 10 * 10 ^ 100 ≤ 2 ^ 1023 := by
    rw [← pow_add]
    exact (pow_le_pow_right₀ (by norm_num) (by norm_num)).trans double_large
  obtain ⟨sim, e, hl, h⟩ := C83_single_partial H s r hs0 (by linarith) hr0 (lt_of_le_of_lt hr (by norm_num)) n K hK hnK counts hnd hM hz counts.length
    (fun i => List.countP_le_length) (singleLength_two s.u_nonneg hs r.u_nonneg hr hlen)
  refine ⟨sim, ?_, hl, h⟩
  obtain ⟨W, e1, e2, hWl, hWnd, hWM, hWv⟩ := singleFit_weights H s r hs0 hs hr0 hr hΩs n K counts hlen hnd hM hz hv
  rw [e1, knnFit_toExt H r _ n K hK W hWnd hWM fun i _ j =>
    (data_inRange r.u_nonneg hr (by rw [hr0]) (by rw [hr0]; norm_num) hWl hWnd hWv i j).mono hbig, ← e2, e]
  rfl

/-- **C103** (`CosineRecommender` for ratings in single precision, from the ratings to the recommendations).  As above; `recommend` for a user row with up to
`10^9` entries up to `10^50` has finite scores, correct up to rounding for the fitted similarities. -/
theorem C103_single_recommend (H : HeapImpl (ℝ × Nat) pairLt) (s r : Rounding ℝ) (hs0 : s.η = 0) (hs : s.u ≤ 1 / 4) (hr0 : r.η = 0) (hr : r.u ≤ 1 / 2 ^ 53)
    {Ωs : ℝ} (hΩs : 10 ^ 37 ≤ Ωs) (n K : Nat) (hK : 1 ≤ K) (hnK : n * K ≤ 2 ^ 31) (counts : SpRows ℝ) (hlen : counts.length ≤ 10 ^ 9)
    (hnd : ∀ row ∈ counts, (row.map Prod.fst).Nodup) (hM : ∀ r ∈ counts, ∀ e ∈ r, e.1 < n) (hz : ∀ r ∈ counts, ∀ e ∈ r, e.2 ≠ 0)
    (hv : ∀ row ∈ counts, ∀ e ∈ row, |e.2| ≤ 10 ^ 18) :
    ∃ sim, extSingleFit H s r Ωs (2 ^ 1023) n K counts = .ok (some sim) ∧ sim.length = n ∧
      ∀ (row : List (Nat × ℝ)), (∀ e ∈ row, e.1 < n) → row.length ≤ 10 ^ 9 → (∀ e ∈ row, |e.2| ≤ 10 ^ 50) → ∀ (k : Nat), 1 ≤ k → ∀ rm : Bool,
        ∃ out, extScorer H r (2 ^ 1023) sim (Accum.new n) row k rm = .ok (some out, Accum.new n) ∧
          Spec.ApproxRanking k (Spec.Reachable sim row) (knnScore sim row rm)
            (fun j => if rm = true ∧ j ∈ row.map Prod.fst then 0
              else Spec.sumError r.u r.η (Spec.scoreTerms sim row j) (Spec.itemMass sim row j)) out := by
  obtain ⟨W, e1, -, hWl, hWnd, hWM, hWv⟩ := singleFit_weights H s r hs0 hs hr0 hr hΩs n K counts hlen hnd hM hz hv
  obtain ⟨sim, e, hl, -, h⟩ := C103_double H r hr (by rw [hr0]; norm_num) n K hK hnK W hWl hWnd hWM hWv
  exact ⟨sim, e1.trans e, hl, h⟩

/-- **C103** (cosine of ratings in single precision, violated beyond the range).  A single rating `2^65`: its weight must be 1, but its square overflows in
single precision and the weight is 0. -/
theorem C103_single_violated (s r : Rounding ℝ) (hs0 : s.η = 0) (hs : s.u ≤ 1 / 4) {Ωs Ω : ℝ} (hΩs : Ωs ≤ 2 ^ 128) :
    extSingleNormalize s r Ωs Ω ⟨1, [(0, 0, 2 ^ 65)]⟩ = [(0, 0, .fin 0)] ∧ (normalizeRows ⟨1, [(0, 0, 2 ^ 65)]⟩).entries = [(0, 0, 1)] := by
  constructor
  · have h : Ext.ofExact s Ωs ((2 ^ 65) ^ 2) = .posInf := by
      have h1 := s.err ((2 ^ 65) ^ 2)
      have hp : (0 : ℝ) < (2 ^ 65) ^ 2 := by positivity
      have hq : (2 : ℝ) ^ 128 < 3 / 4 * (2 ^ 65) ^ 2 := by norm_num
      rw [hs0, add_zero, abs_of_pos hp] at h1
      have h2 := (abs_le.mp h1).1
      have h3 : s.u * (2 ^ 65) ^ 2 ≤ 1 / 4 * (2 ^ 65) ^ 2 := mul_le_mul_of_nonneg_right hs hp.le
      unfold Ext.ofExact
      generalize ((2 : ℝ) ^ 65) ^ 2 = y at *
      rw [if_neg (by
        rw [not_le]
        refine lt_of_lt_of_le ?_ (le_abs_self _)
        linarith), if_pos hp]
    show [(0, 0, Ext.div r Ω (.fin (2 ^ 65)) (Ext.sqrt r Ω (Ext.add r Ω (.fin 0) (Ext.ofExact s Ωs ((2 ^ 65) ^ 2)))))] = _
    rw [h]
    rfl
  · have h : (2 : ℝ) ^ 65 ≠ 0 := by positivity
    simp only [normalizeRows, bincountW, List.map_cons, List.map_nil]
    simp [Real.sqrt_sq]

/-- Two users, three items. -/
def singleRatings : SpRows ℝ := [[(0, 5), (2, 1)], [(1, 10 ^ 15), (2, -7)]]

theorem singleRatings_rows {P : List (Nat × ℝ) → Prop} (h1 : P [(0, 5), (2, 1)]) (h2 : P [(1, 10 ^ 15), (2, -7)]) : ∀ row ∈ singleRatings, P row := by
  intro row hrow
  simp only [singleRatings, List.mem_cons, List.not_mem_nil, or_false] at hrow
  rcases hrow with rfl | rfl
  exacts [h1, h2]

theorem singleRatings_ok : (∀ row ∈ singleRatings, (row.map Prod.fst).Nodup) ∧ (∀ r ∈ singleRatings, ∀ e ∈ r, e.1 < 3) ∧
    (∀ r ∈ singleRatings, ∀ e ∈ r, e.2 ≠ 0) ∧ ∀ r ∈ singleRatings, ∀ e ∈ r, |e.2| ≤ 10 ^ 18 := by
  refine ⟨singleRatings_rows (by decide) (by decide), singleRatings_rows ?_ ?_, singleRatings_rows ?_ ?_, singleRatings_rows ?_ ?_⟩ <;>
    · intro e he
      simp only [List.mem_cons, List.not_mem_nil, or_false] at he
      rcases he with rfl | rfl <;> norm_num

example := C103_single_partial insertionHeap (freeFloat 24) (freeFloat 53) rfl (by unfold freeFloat; norm_num) rfl (by unfold freeFloat; norm_num)
  (Ωs := 2 ^ 127) (by norm_num) 3 2 (by norm_num) (by norm_num) singleRatings (by norm_num [singleRatings]) singleRatings_ok.1 singleRatings_ok.2.1
  singleRatings_ok.2.2.1 singleRatings_ok.2.2.2

example := C103_single_recommend insertionHeap (freeFloat 24) (freeFloat 53) rfl (by unfold freeFloat; norm_num) rfl (by unfold freeFloat; norm_num)
  (Ωs := 2 ^ 127) (by norm_num) 3 2 (by norm_num) (by norm_num) singleRatings (by norm_num [singleRatings]) singleRatings_ok.1 singleRatings_ok.2.1
  singleRatings_ok.2.2.1 singleRatings_ok.2.2.2

example := C103_single_violated (freeFloat 24) (freeFloat 53) rfl (by unfold freeFloat; norm_num) (Ωs := 2 ^ 127) (Ω := 2 ^ 1023) (by norm_num)

end Implicit
