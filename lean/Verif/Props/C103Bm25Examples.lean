import Verif.Props.C103Bm25
/-!
# C103 for BM25 weights: examples, and what happens beyond the range
-/

namespace Implicit

/-- Ratings in single precision, weights in double precision, the defaults of `K1` and `B`, any order of the sum. -/
example (t : SumTree 5) (ht : t.Complete) := C103_bm25_partial (v := 0) (exactLogs le_rfl) (freeFloat 24) (freeFloat 53) le_rfl rfl rfl
  (by unfold freeFloat; norm_num) (Ωs := 2 ^ 127) (by norm_num) insertionHeap 5 10 (by norm_num) (by norm_num) 1.2 0.75 (by norm_num) (by norm_num)
  (by norm_num) (by norm_num) t ht fiveItems (by norm_num [fiveItems]) fiveItems_ok.1 fiveItems_ok.2.1 fiveItems_ok.2.2.1
  (fiveItems_rows (by norm_num) (by norm_num)) fiveItems_ok.2.2.2.1 (by norm_num [Spec.idfError]) 2 fiveItems_ok.2.2.2.2
  (by unfold freeFloat; norm_num) (by unfold freeFloat; norm_num)

example (t : SumTree 5) (ht : t.Complete) := C103_bm25_recommend (v := 0) (exactLogs le_rfl) (freeFloat 24) (freeFloat 53) le_rfl rfl rfl
  (by unfold freeFloat; norm_num) (Ωs := 2 ^ 127) (by norm_num) insertionHeap 5 10 (by norm_num) (by norm_num) 1.2 0.75 (by norm_num) (by norm_num)
  (by norm_num) (by norm_num) t ht fiveItems (by norm_num [fiveItems]) fiveItems_ok.1 fiveItems_ok.2.1 fiveItems_ok.2.2.1
  (fiveItems_rows (by norm_num) (by norm_num)) fiveItems_ok.2.2.2.1 (by norm_num [Spec.idfError]) 2 fiveItems_ok.2.2.2.2
  (by unfold freeFloat; norm_num) (by unfold freeFloat; norm_num)

/-- Two users rate item 0 of four with `x`. -/
def twoRatings (x : ℝ) : Coo := ⟨4, [(0, 0, x), (0, 1, x)]⟩

theorem rowSum_overflow {s : Rounding ℝ} (h0 : s.η = 0) (hu : s.u ≤ 1 / 8) {Ωs x : ℝ} (hx : 0 < x) (hΩ : Ωs < 7 / 8 * (7 / 8 * x + x)) :
    extRowSum s Ωs (twoRatings x) 0 = .posInf := by
  show Ext.add s Ωs (Ext.add s Ωs (.fin 0) (.fin x)) (.fin x) = _
  have lower : ∀ x : ℝ, 0 ≤ x → 7 / 8 * x ≤ s.rnd x := by
    intro x hx
    have h1 := s.err x
    rw [h0, add_zero, abs_of_nonneg hx] at h1
    have h2 := (abs_le.mp h1).1
    have h3 : s.u * x ≤ 1 / 8 * x := mul_le_mul_of_nonneg_right hu hx
    linarith
  have h1 := lower x hx.le
  have e1 : Ext.add s Ωs (.fin 0) (.fin x) = .ofExact s Ωs x := by
    show Ext.ofExact s Ωs (0 + x) = _
    rw [zero_add]
  rw [e1]
  unfold Ext.ofExact
  split_ifs with h2
  · have h4 := lower (s.rnd x + x) (by linarith)
    show Ext.ofExact s Ωs (s.rnd x + x) = _
    unfold Ext.ofExact
    rw [if_neg (by
      rw [not_le]
      refine lt_of_lt_of_le ?_ (le_abs_self _)
      linarith), if_pos (by linarith)]
  · rfl

/-- **C103** (BM25, violated beyond the range).  Ratings in single precision, two of `3 * 2^126` for one item, and `B = 0`, with which the length of an item
must not matter: the sum of the ratings overflows and both weights are NaN, though the exact weights are positive and below `4 (K1 + 1)`. -/
theorem C103_bm25_violated {v : ℝ} (L : LogLibrary v) (s r : Rounding ℝ) (hs0 : s.η = 0) (hs : s.u ≤ 1 / 8) {Ωs Ω : ℝ} (hΩ0 : 0 ≤ Ωs) (hΩs : Ωs ≤ 2 ^ 128)
    (K1 : ℝ) (hK : 0 ≤ K1) (t : SumTree 4) :
    extBm25 L s r Ωs Ω K1 0 (twoRatings (3 * 2 ^ 126)) t = [(0, 0, .nan), (0, 1, .nan)] ∧
      ∀ e ∈ (bm25Weight K1 0 (twoRatings (3 * 2 ^ 126))).entries, 0 < e.2.2 ∧ e.2.2 < 4 * (K1 + 1) := by
  constructor
  · have hln : extLengthNorm s r Ωs Ω 0 (twoRatings (3 * 2 ^ 126)) t 0 = .nan := by
      unfold extLengthNorm
      rw [rowSum_overflow hs0 hs (by norm_num) (lt_of_le_of_lt hΩs (by norm_num))]
      have e1 : Ext.ofExact s Ωs 0 = .fin 0 := by
        have := ofExact_fin (r := s) (Ω := Ωs) (x := 0) (by rw [rnd_zero s hs0, abs_zero]; exact hΩ0)
        rwa [rnd_zero s hs0] at this
      have e2 : Ext.mul s Ωs (.fin 0) .posInf = .nan := if_pos rfl
      rw [e1, e2]
      show Ext.add s Ωs _ .nan = _
      generalize Ext.convert s Ωs (Ext.ofExact r Ω (1 - 0)) = a
      cases a <;> rfl
    have hw : ∀ a b c : Ext ℝ, ∀ x : ℝ, Ext.mul r Ω (.div s Ωs a (.add s Ωs (.mul s Ωs b .nan) (.fin x))) c = .nan := by
      intro a b c x
      have e1 : Ext.mul s Ωs b .nan = .nan := by cases b <;> rfl
      have e2 : Ext.add s Ωs .nan (.fin x) = .nan := rfl
      have e3 : Ext.div s Ωs a .nan = .nan := by cases a <;> rfl
      rw [e1, e2, e3]
      rfl
    unfold extBm25
    have hent : (twoRatings (3 * 2 ^ 126)).entries = [(0, 0, 3 * 2 ^ 126), (0, 1, 3 * 2 ^ 126)] := rfl
    rw [hent]
    simp only [List.map_cons, List.map_nil]
    rw [hln, hw, hw]
  · have hidf : ∀ c < 2, idf (twoRatings (3 * 2 ^ 126)) c = Real.log 2 := by
      intro c hc
      have h2 : Real.log 4 = 2 * Real.log 2 := by
        rw [show (4 : ℝ) = 2 ^ 2 by norm_num, Real.log_pow]
        norm_num
      have hb : bincount ((twoRatings (3 * 2 ^ 126)).entries.map fun e => e.2.1) c = 1 := by
        show bincount [0, 1] c = 1
        interval_cases c <;> rfl
      unfold idf
      rw [hb]
      show Real.log ((4 : Nat) : ℝ) - Real.log (1 + ((1 : Nat) : ℝ)) = _
      norm_num
      rw [h2]
      ring
    have hl : lengthNorm 0 (twoRatings (3 * 2 ^ 126)) 0 = 1 := by
      unfold lengthNorm
      ring
    have hq : ∀ x : ℝ, 0 < x → 0 < x * (K1 + 1) / (K1 * 1 + x) * Real.log 2 ∧ x * (K1 + 1) / (K1 * 1 + x) * Real.log 2 < 4 * (K1 + 1) := by
      intro x hx
      have h1 := Real.log_pos (by norm_num : (1 : ℝ) < 2)
      have h2 : Real.log 2 < 1 := lt_trans Real.log_two_lt_d9 (by norm_num)
      have h3 : 0 < x * (K1 + 1) / (K1 * 1 + x) := by positivity
      have h4 : x * (K1 + 1) / (K1 * 1 + x) ≤ K1 + 1 := by
        rw [div_le_iff₀ (by positivity)]
        nlinarith
      exact ⟨mul_pos h3 h1, by nlinarith⟩
    intro e he
    obtain ⟨a, ha, rfl⟩ := List.mem_map.mp he
    have ha' : a = (0, 0, 3 * 2 ^ 126) ∨ a = (0, 1, 3 * 2 ^ 126) := by simpa [twoRatings] using ha
    rcases ha' with rfl | rfl
    · simp only
      rw [hl, hidf 0 (by norm_num)]
      exact hq _ (by norm_num)
    · simp only
      rw [hl, hidf 1 (by norm_num)]
      exact hq _ (by norm_num)

/-- **C103** (cosine, violated for stored zeros).  An item whose only stored value is 0 gets the weight `0 / 0`. -/
theorem C103_zero_violated (r : Rounding ℝ) (h0 : r.η = 0) {Ω : ℝ} (hΩ : 0 ≤ Ω) : extNormalize r Ω ⟨1, [(0, 0, 0)]⟩ = [(0, 0, .nan)] := by
  have hz : ∀ x : ℝ, x = 0 → Ext.ofExact r Ω x = .fin 0 := by
    rintro x rfl
    have := ofExact_fin (r := r) (Ω := Ω) (x := 0) (by rw [rnd_zero r h0, abs_zero]; exact hΩ)
    rwa [rnd_zero r h0] at this
  show [(0, 0, Ext.div r Ω (.fin 0) (Ext.sqrt r Ω (Ext.add r Ω (.fin 0) (Ext.ofExact r Ω (0 ^ 2)))))] = _
  have e1 : Ext.add r Ω (.fin 0) (.fin 0) = .fin 0 := hz (0 + 0) (by norm_num)
  have e2 : Ext.sqrt r Ω (.fin 0) = .fin 0 := by
    show (if (0 : ℝ) < 0 then Ext.nan else Ext.ofExact r Ω (Real.sqrt 0)) = _
    rw [if_neg (lt_irrefl _)]
    exact hz _ Real.sqrt_zero
  have e3 : Ext.div r Ω (.fin 0) (.fin 0) = .nan := by
    show (if (0 : ℝ) = 0 then (if (0 : ℝ) = 0 then Ext.nan else _) else _) = _
    rw [if_pos rfl, if_pos rfl]
  rw [hz _ (by norm_num), e1, e2, e3]

example (t : SumTree 4) := C103_bm25_violated (v := 0) (exactLogs le_rfl) (freeFloat 24) (freeFloat 53) rfl (by unfold freeFloat; norm_num)
  (Ωs := 2 ^ 127) (Ω := 2 ^ 1023) (by norm_num) (by norm_num) 1.2 (by norm_num) t

example := C103_zero_violated (freeFloat 53) rfl (Ω := 2 ^ 1023) (by positivity)

/-- Products with infinities. -/
example (r : Rounding ℝ) (Ω : ℝ) : Ext.mul r Ω (.fin 0) .posInf = .nan ∧ Ext.mul r Ω .negInf (.fin 0) = .nan ∧ Ext.mul r Ω (.fin 2) .posInf = .posInf ∧
    Ext.mul r Ω (.fin (-2)) .posInf = .negInf ∧ Ext.mul r Ω .negInf (.fin (-2)) = .posInf ∧ Ext.mul r Ω .negInf .negInf = .posInf ∧
    Ext.mul r Ω .posInf .negInf = .negInf ∧ Ext.mul r Ω .nan (.fin 0) = .nan ∧ Ext.mul r Ω (.fin 0) .nan = .nan ∧
    Ext.mul r Ω (.fin 3) .negInf = .negInf ∧ Ext.mul r Ω .posInf (.fin (-1)) = .negInf ∧ Ext.mul r Ω .posInf (.fin 0) = .nan ∧
    Ext.mul r Ω .negInf .posInf = .negInf ∧ Ext.mul r Ω .posInf .posInf = .posInf := by
  refine ⟨?_, ?_, ?_, ?_, ?_, rfl, rfl, rfl, rfl, ?_, ?_, ?_, rfl, rfl⟩ <;> norm_num [Ext.mul]

end Implicit
