import Verif.Props.C99Fit
import Mathlib.Analysis.Complex.ExponentialBounds
/-!
# C99: double precision, cancellation, examples
-/

namespace Implicit

/-! ## Double precision -/

theorem quotient_pow {b : ℝ} (h0 : 0 ≤ b) (h1 : b < 1) (k : Nat) (hk : k * b < 1) : (1 / (1 - b)) ^ k ≤ 1 / (1 - k * b) := by
  rw [div_pow, one_pow]
  refine one_div_le_one_div_of_le (by linarith) ?_
  have := one_add_mul_le_pow (a := -b) (by linarith) k
  rw [show 1 + k * -b = 1 - k * b by ring, show 1 + -b = 1 - b by ring] at this
  exact this

theorem quotient_le {x c : ℝ} (h0 : 0 ≤ x) (hx : x ≤ c) (hc : c ≤ 1 / 2) : 1 / (1 - x) ≤ 1 + 2 * c := by
  rw [div_le_iff₀ (by linarith)]
  nlinarith

theorem log_million {n : Nat} (hn : n ≤ 1000000) : Real.log n ≤ 14 := by
  rcases Nat.eq_zero_or_pos n with rfl | hpos
  · simp
  have h1 : Real.log n ≤ Real.log ((2 : ℝ) ^ 20) := by
    refine Real.log_le_log (by exact_mod_cast hpos) ?_
    have : (n : ℝ) ≤ 1000000 := by exact_mod_cast hn
    norm_num
    linarith
  rw [Real.log_pow] at h1
  have := Real.log_two_lt_d9
  push_cast at h1
  linarith

theorem idfError_million {n : Nat} (hn : n ≤ 1000000) : Spec.idfError (2 ^ (-52 : Int)) n ≤ 7 / 10 ^ 9 := by
  have h1 := log_million hn
  have h2 : (n : ℝ) ≤ 1000000 := by exact_mod_cast hn
  have h3 : 0 ≤ Real.log n := Real.log_natCast_nonneg _
  unfold Spec.idfError
  have h4 : (n : ℝ) * Real.log n ≤ 1000000 * 14 := mul_le_mul h2 h1 h3 (by norm_num)
  calc 2 * (2 : ℝ) ^ (-52 : Int) * n * Real.log n = 2 * (2 : ℝ) ^ (-52 : Int) * (n * Real.log n) := by ring
    _ ≤ 2 * (2 : ℝ) ^ (-52 : Int) * (1000000 * 14) := mul_le_mul_of_nonneg_left h4 (by positivity)
    _ ≤ _ := by norm_num

theorem quotient_double {k : Nat} (hk : k ≤ 4000000) : (1 / (1 - (2 : ℝ) ^ (-53 : Int))) ^ k ≤ 1 + 1 / 10 ^ 9 := by
  have hb0 : (0 : ℝ) ≤ 2 ^ (-53 : Int) := by positivity
  have hkb : (k : ℝ) * 2 ^ (-53 : Int) ≤ 1 / (2 * 10 ^ 9) := by
    have h1 : (k : ℝ) ≤ 4000000 := by exact_mod_cast hk
    have h2 : (4000000 : ℝ) * 2 ^ (-53 : Int) ≤ 1 / (2 * 10 ^ 9) := by norm_num
    exact (mul_le_mul_of_nonneg_right h1 hb0).trans h2
  have h1 : (1 : ℝ) / (2 * 10 ^ 9) ≤ 1 / 2 := by norm_num
  have h2 : (2 : ℝ) ^ (-53 : Int) < 1 := by norm_num
  refine (quotient_pow hb0 h2 k (lt_of_le_of_lt hkb (by norm_num))).trans ?_
  refine (quotient_le (by positivity) hkb h1).trans (le_of_eq ?_)
  norm_num

/-- In double precision with logarithms good to two units in the last place: with up to a million items and a million ratings per item, TF-IDF
similarities are off by less than `0.0000001` and BM25 weights by a factor of at most `1.00000002`. -/
theorem C99_double (n m : Nat) (hn : n ≤ 1000000) (hm : m ≤ 1000000) :
    Spec.idfError (2 ^ (-52 : Int)) n < 1 ∧
    Spec.cosineFitError ((2 : ℝ) ^ (-53 : Int)) m + (Spec.tfidfFactor (2 ^ (-53 : Int)) (2 ^ (-53 : Int)) (2 ^ (-52 : Int)) n ^ 4 - 1) <
      1 / 10 ^ 7 ∧
    Spec.bm25Factor (2 ^ (-53 : Int)) (2 ^ (-53 : Int)) (2 ^ (-52 : Int)) n m ≤ 1 + 2 / 10 ^ 8 := by
  have hi := idfError_million hn
  have hi0 : 0 ≤ Spec.idfError (2 ^ (-52 : Int)) n := idfError_nonneg (by positivity) n
  have hq := quotient_le hi0 hi (by norm_num)
  have hq1 := one_le_quotient hi0 (lt_of_le_of_lt hi (by norm_num))
  have hc := (C83_cosine_double m hm).1
  refine ⟨lt_of_le_of_lt hi (by norm_num), ?_, ?_⟩
  · have e : Spec.tfidfFactor (2 ^ (-53 : Int)) (2 ^ (-53 : Int)) (2 ^ (-52 : Int)) n =
        (1 / (1 - (2 : ℝ) ^ (-53 : Int))) ^ 3 * (1 / (1 - Spec.idfError (2 ^ (-52 : Int)) n)) := by
      unfold Spec.tfidfFactor; ring
    have hp := quotient_double (k := 3) (by norm_num)
    have hp0 : 0 ≤ (1 / (1 - (2 : ℝ) ^ (-53 : Int))) ^ 3 := by norm_num
    rw [e]
    generalize (1 / (1 - (2 : ℝ) ^ (-53 : Int))) ^ 3 = x at *
    generalize 1 / (1 - Spec.idfError (2 ^ (-52 : Int)) n) = y at *
    have hxy : x * y ≤ (1 + 1 / 10 ^ 9) * (1 + 2 * (7 / 10 ^ 9)) := mul_le_mul hp hq (by linarith) (by norm_num)
    have h4 : (x * y) ^ 4 ≤ ((1 + 1 / 10 ^ 9) * (1 + 2 * (7 / 10 ^ 9))) ^ 4 := pow_le_pow_left₀ (mul_nonneg hp0 (by linarith)) hxy 4
    have h5 : (((1 : ℝ) + 1 / 10 ^ 9) * (1 + 2 * (7 / 10 ^ 9))) ^ 4 ≤ 1 + 7 / 10 ^ 8 := by norm_num
    have h6 : (1 : ℝ) / 10 ^ 9 + 7 / 10 ^ 8 ≤ 1 / 10 ^ 7 := by norm_num
    linarith
  · have e : Spec.bm25Factor (2 ^ (-53 : Int)) (2 ^ (-53 : Int)) (2 ^ (-52 : Int)) n m =
        (1 / (1 - (2 : ℝ) ^ (-53 : Int))) ^ (2 * m + n + 15) * (1 / (1 - Spec.idfError (2 ^ (-52 : Int)) n)) := by
      unfold Spec.bm25Factor; ring
    have hp := quotient_double (k := 2 * m + n + 15) (by omega)
    rw [e]
    generalize (1 / (1 - (2 : ℝ) ^ (-53 : Int))) ^ (2 * m + n + 15) = x at *
    generalize 1 / (1 - Spec.idfError (2 ^ (-52 : Int)) n) = y at *
    have hxy : x * y ≤ (1 + 1 / 10 ^ 9) * (1 + 2 * (7 / 10 ^ 9)) := mul_le_mul hp hq (by linarith) (by norm_num)
    refine hxy.trans ?_
    norm_num

/-! ## Cancellation -/

/-- One user who rated two of three items. -/
noncomputable def twoOfThree : SpRows ℝ := [[(1, 1), (2, 1)]]

theorem rnd_ne_zero (r : Rounding ℝ) (h0 : r.η = 0) (hu : r.u < 1) {x : ℝ} (hx : x ≠ 0) : r.rnd x ≠ 0 := by
  intro h
  have := r.err x
  rw [h, h0, add_zero, zero_sub, abs_neg] at this
  have hp := abs_pos.mpr hx
  nlinarith

theorem tfidf_cancel (L : LogLibrary v) (s r : Rounding ℝ) (hs0 : s.η = 0) (hs : s.u < 1) (hr0 : r.η = 0) (hr : r.u < 1)
    (hL : L.log 3 ≠ L.log1p 2) :
    ∃ w : ℝ, w ≠ 0 ∧ weightRows (computedTfidf L s r 3 twoOfThree) twoOfThree = [[(1, w), (2, w)]] := by
  have hb : bincount ((itemUser 3 twoOfThree).entries.map fun e => e.2.1) 0 = 2 := by
    unfold itemUser twoOfThree bincount
    simp
  refine ⟨r.rnd (s.rnd (Real.sqrt 1) * roundIdf L r (itemUser 3 twoOfThree) 0), ?_, rfl⟩
  refine rnd_ne_zero r hr0 hr (mul_ne_zero (rnd_ne_zero s hs0 hs (by simp)) ?_)
  unfold roundIdf
  rw [hb]
  refine rnd_ne_zero r hr0 hr ?_
  have : ((itemUser 3 twoOfThree).nrows : ℝ) = 3 := by unfold itemUser; norm_num
  rw [this]
  norm_num
  exact sub_ne_zero.mpr hL

/-- **C99 is violated without the condition on the users**: a user with `n - 1` of `n` items has `idf = log n - log1p (n - 1) = 0`, so
their ratings have no weight.  If the two logarithms differ in the last place, as they may however accurate they are (and do for `n = 3`
in the C library: `1.0986122886681098` and `1.0986122886681096`), the difference is not zero, and `normalize` turns the rounding error
into weights of length one: two items that only this user rated have similarity 1 up to rounding instead of 0. -/
theorem C99_cancellation_violated (v : ℝ) (hv : 0 < v) (s r : Rounding ℝ) (hs0 : s.η = 0) (hs : s.u < 1) (hr0 : r.η = 0) (hr : r.u < 1)
    (hum : (1 + r.u) ^ 3 < 2) (H : HeapImpl (ℝ × Nat) pairLt) :
    (∃ L : LogLibrary v, L.log 3 ≠ L.log1p 2) ∧
    (∀ L : LogLibrary v, L.log 3 ≠ L.log1p 2 → ∃ sim, roundTfidfFit L s r H 3 2 twoOfThree = .ok sim ∧
      ∃ row c, sim[1]? = some row ∧ (2, c) ∈ row ∧ |c - 1| ≤ Spec.cosineFitError r.u 1) ∧
    Spec.cosine (Spec.column (tfidfRows 3 twoOfThree) 1) (Spec.column (tfidfRows 3 twoOfThree) 2) = 0 := by
  refine ⟨?_, ?_, ?_⟩
  · have h3 : 0 < Real.log 3 := Real.log_pos (by norm_num)
    refine ⟨⟨fun x => Real.log x + v * Real.log x, fun x => Real.log (1 + x), fun x hx => ?_, fun x hx => ?_⟩, ?_⟩
    · rw [add_sub_cancel_left, abs_of_nonneg (mul_nonneg hv.le (Real.log_nonneg hx))]
    · rw [sub_self, abs_zero]
      exact mul_nonneg hv.le (Real.log_nonneg (by linarith))
    · have := mul_pos hv h3
      change Real.log 3 + v * Real.log 3 ≠ Real.log (1 + 2)
      rw [show (1 : ℝ) + 2 = 3 by norm_num]
      exact (lt_add_of_pos_right _ this).ne'
  · intro L hL
    rw [roundTfidfFit_cosine]
    obtain ⟨w, hw, e⟩ := tfidf_cancel L s r hs0 hs hr0 hr hL
    rw [e]
    obtain ⟨sim, h1, -, h⟩ := C83_cosine_partial H r hr0 3 2 (by norm_num) (by norm_num) [[(1, w), (2, w)]] (by simp) (by
        simp only [forall_eq, List.mem_cons, List.not_mem_nil, or_false]
        rintro e (rfl | rfl) <;> norm_num) (by
        simp only [forall_eq, List.mem_cons, List.not_mem_nil, or_false]
        rintro e (rfl | rfl) <;> exact hw) 1
      (fun i => by unfold Spec.coRaters; exact List.countP_le_length) hum
    refine ⟨sim, h1, ?_⟩
    obtain ⟨row, out, hrow, hmem, hA⟩ := h 1 (by norm_num) (by norm_num)
    have hco : ∀ j, Spec.CoRated [[(1, w), (2, w)]] 1 j ↔ j = 1 ∨ j = 2 := by
      intro j
      constructor
      · rintro ⟨row, hrow, -, x, hx⟩
        rw [List.mem_singleton] at hrow
        subst hrow
        simp only [List.mem_cons, Prod.mk.injEq, List.not_mem_nil, or_false] at hx
        exact hx.imp And.left And.left
      · rintro (rfl | rfl)
        · exact ⟨_, List.mem_singleton.mpr rfl, ⟨w, by simp⟩, ⟨w, by simp⟩⟩
        · exact ⟨_, List.mem_singleton.mpr rfl, ⟨w, by simp⟩, ⟨w, by simp⟩⟩
    have h2 : 2 ∈ out.map Prod.fst := by
      by_contra hn
      have hl : out.length < 2 := by
        have hsub : out.map Prod.fst ⊆ [1] := by
          intro j hj
          obtain ⟨p, hp, rfl⟩ := List.mem_map.mp hj
          rcases (hco p.1).mp (hA.mem p hp).1 with h | h
          · simp [h]
          · exact absurd (h ▸ List.mem_map.mpr ⟨p, hp, rfl⟩) hn
        have := (hA.distinct.subperm hsub).length_le
        simp at this
        omega
      exact hn (hA.complete hl 2 ((hco 2).mpr (Or.inr rfl)))
    obtain ⟨p, hp, hp2⟩ := List.mem_map.mp h2
    refine ⟨row, p.2, hrow, (hmem _).mpr (by rw [← hp2]; exact hp), ?_⟩
    have := (hA.mem p hp).2
    rw [hp2] at this
    have hcols : Spec.column [[(1, w), (2, w)]] 2 = Spec.column [[(1, w), (2, w)]] 1 := by
      funext u
      simp [Spec.column, Spec.cell, Spec.sumAt]
    have hone := (C29_range [[(1, w), (2, w)]] 1 1).2 ⟨_, List.mem_singleton.mpr rfl, by simp [Spec.cell, Spec.sumAt, hw]⟩
    rw [hcols, hone] at this
    exact this
  · have : Spec.column (tfidfRows 3 twoOfThree) 1 = 0 := by
      funext u
      have hrow : tfidfRows 3 twoOfThree = [[(1, 0), (2, 0)]] := by
        unfold tfidfRows twoOfThree
        norm_num
      unfold Spec.column
      generalize hM : tfidfRows 3 twoOfThree = M at *
      subst hrow
      simp [Spec.cell, Spec.sumAt]
    unfold Spec.cosine
    rw [if_pos (Or.inl this)]

/-! ## Examples -/

/-- Logarithms without error. -/
noncomputable def exactLogs {v : ℝ} (hv : 0 ≤ v) : LogLibrary v where
  log := Real.log
  log1p := fun x => Real.log (1 + x)
  log_err := fun x hx => by rw [sub_self, abs_zero]; exact mul_nonneg hv (Real.log_nonneg hx)
  log1p_err := fun x hx => by rw [sub_self, abs_zero]; exact mul_nonneg hv (Real.log_nonneg (by linarith))

/-- Two users and five items. -/
noncomputable def fiveItems : SpRows ℝ := [[(0, 4), (1, 1), (2, 2)], [(1, 9), (2, 1)]]

theorem fiveItems_rows {P : List (Nat × ℝ) → Prop} (h1 : P [(0, 4), (1, 1), (2, 2)]) (h2 : P [(1, 9), (2, 1)]) : ∀ row ∈ fiveItems, P row := by
  unfold fiveItems
  simp only [List.mem_cons, List.not_mem_nil, or_false]
  rintro row (rfl | rfl)
  · exact h1
  · exact h2

theorem fiveItems_ok : (∀ row ∈ fiveItems, (row.map Prod.fst).Nodup) ∧ (∀ r ∈ fiveItems, ∀ e ∈ r, e.1 < 5) ∧
    (∀ r ∈ fiveItems, ∀ e ∈ r, 0 < e.2) ∧ (∀ r ∈ fiveItems, r.length + 1 < 5) ∧ ∀ i, Spec.coRaters fiveItems i i ≤ 2 := by
  refine ⟨fiveItems_rows (by decide) (by decide), fiveItems_rows ?_ ?_, fiveItems_rows ?_ ?_, fiveItems_rows (by simp) (by simp),
    fun i => List.countP_le_length⟩ <;>
  · simp only [List.mem_cons, List.not_mem_nil, or_false]
    rintro e h
    rcases h with rfl | rfl | rfl <;> norm_num

/-- The hypotheses of `C99_tfidf_partial` hold in double precision for ratings of five items, with the logarithms of any library that is good
to two units in the last place; item 2 is listed for item 1 with a similarity within `0.0000001` of the cosine. -/
example (L : LogLibrary (2 ^ (-52 : Int))) (H : HeapImpl (ℝ × Nat) pairLt) :
    ∃ sim row c, roundTfidfFit L (freeFloat 53) (freeFloat 53) H 5 10 fiveItems = .ok sim ∧ sim[1]? = some row ∧ (2, c) ∈ row ∧
      |c - Spec.cosine (Spec.column (tfidfRows 5 fiveItems) 1) (Spec.column (tfidfRows 5 fiveItems) 2)| < 1 / 10 ^ 7 := by
  obtain ⟨h1, h2, h3, h4, h5⟩ := fiveItems_ok
  obtain ⟨d1, d2, -⟩ := C99_double 5 2 (by norm_num) (by norm_num)
  have hu : (freeFloat 53 : Rounding ℝ).u = 2 ^ (-53 : Int) := by norm_num [freeFloat]
  obtain ⟨sim, e, -, h⟩ := C99_tfidf_partial L (freeFloat 53) (freeFloat 53) (by positivity) rfl (by rw [hu]; norm_num) rfl (by rw [hu]; norm_num)
    H 5 10 (by norm_num) (by norm_num) fiveItems h1 h2 h3 h4 d1 2 h5 (by rw [hu]; exact (C83_cosine_double 2 (by norm_num)).2)
  obtain ⟨row, out, hrow, hmem, hA⟩ := h 1 (by norm_num) (by norm_num)
  have hlen : out.length < 10 := by
    have hsub : out.map Prod.fst ⊆ [0, 1, 2, 3, 4] := by
      intro j hj
      obtain ⟨p, hp, rfl⟩ := List.mem_map.mp hj
      obtain ⟨w, hw, -, x, hx⟩ := (hA.mem p hp).1
      have : p.1 < 5 := h2 w hw (p.1, x) hx
      interval_cases p.1 <;> simp
    have := (hA.distinct.subperm hsub).length_le
    simp at this
    omega
  obtain ⟨p, hp, hp2⟩ := List.mem_map.mp (hA.complete hlen 2 ⟨[(1, 9), (2, 1)], by simp [fiveItems], ⟨9, by simp⟩, ⟨1, by simp⟩⟩)
  refine ⟨sim, row, p.2, e, hrow, (hmem _).mpr (by rw [← hp2]; exact hp), ?_⟩
  have := (hA.mem p hp).2
  rw [hp2, hu] at this
  exact lt_of_le_of_lt this d2

/-- For the same ratings BM25 with the default `K1` and `B` lists the similarities up to the product of the weights' factors. -/
example (L : LogLibrary (2 ^ (-52 : Int))) (H : HeapImpl (ℝ × Nat) pairLt) (t : SumTree 5) (ht : t.Complete) :
    ∃ sim, roundBm25Fit L (freeFloat 53) (freeFloat 53) H 5 10 1.2 0.75 t fiveItems = .ok sim ∧ sim.length = 5 := by
  obtain ⟨h1, h2, h3, h4, h5⟩ := fiveItems_ok
  obtain ⟨d1, -, -⟩ := C99_double 5 2 (by norm_num) (by norm_num)
  have hu : (freeFloat 53 : Rounding ℝ).u = 2 ^ (-53 : Int) := by norm_num [freeFloat]
  obtain ⟨sim, e, hl, -⟩ := C99_bm25_partial L (freeFloat 53) (freeFloat 53) (by positivity) rfl (by rw [hu]; norm_num) rfl
    (by rw [hu]; norm_num) H 5 10 (by norm_num) (by norm_num) 1.2 0.75 (by norm_num) (by norm_num) (by norm_num) t ht fiveItems h1 h2 h3 h4 d1 2 h5
  exact ⟨sim, e, hl⟩

/-- Weights of `tfidf_weight` and `bm25_weight` for the ratings of the first user, in double precision. -/
example (L : LogLibrary (2 ^ (-52 : Int))) (t : SumTree 5) (ht : t.Complete) :
    (∃ w, (roundTfidf L (freeFloat 53) (freeFloat 53) ⟨5, [(0, 0, 4), (1, 0, 1)]⟩).entries[0]? = some (0, 0, w) ∧
      Spec.WithinFactor (Spec.tfidfFactor (freeFloat 53 : Rounding ℝ).u (freeFloat 53 : Rounding ℝ).u (2 ^ (-52 : Int)) 5) w
        (2 * (Real.log 5 - Real.log 3))) ∧
    ∃ w, (roundBm25 L (freeFloat 53) (freeFloat 53) 1.2 0 ⟨5, [(0, 0, 4), (1, 0, 1)]⟩ t).entries[0]? = some (0, 0, w) ∧
      Spec.WithinFactor (Spec.bm25Factor (freeFloat 53 : Rounding ℝ).u (freeFloat 53 : Rounding ℝ).u (2 ^ (-52 : Int)) 5 2) w
        (4 * 2.2 / (1.2 + 4) * (Real.log 5 - Real.log 3)) := by
  have hu : (freeFloat 53 : Rounding ℝ).u = 2 ^ (-53 : Int) := by norm_num [freeFloat]
  obtain ⟨d1, -, -⟩ := C99_double 5 2 (by norm_num) (by norm_num)
  have hX : ∀ e ∈ (⟨5, [(0, 0, 4), (1, 0, 1)]⟩ : Coo).entries,
      0 < e.2.2 ∧ Spec.columnCount (⟨5, [(0, 0, 4), (1, 0, 1)]⟩ : Coo).entries e.2.1 + 1 < (⟨5, [(0, 0, 4), (1, 0, 1)]⟩ : Coo).nrows := by
    simp only [List.mem_cons, List.not_mem_nil, or_false]
    rintro e (rfl | rfl) <;> norm_num [Spec.columnCount]
  have hcount : Spec.columnCount [((0 : Nat), (0 : Nat), (4 : ℝ)), (1, 0, 1)] 0 = 2 := by simp [Spec.columnCount]
  constructor
  · obtain ⟨w, h1, h2⟩ := (C99_tfidf_weights L (by positivity) (freeFloat 53) (freeFloat 53) rfl (by rw [hu]; norm_num) rfl (by rw [hu]; norm_num)
      ⟨5, [(0, 0, 4), (1, 0, 1)]⟩ hX d1).2.2 0 0 0 4 rfl
    refine ⟨w, h1, ?_⟩
    simp only [hcount] at h2
    rw [show Real.sqrt 4 = 2 by rw [show (4 : ℝ) = 2 ^ 2 by norm_num]; exact Real.sqrt_sq (by norm_num)] at h2
    norm_num at h2 ⊢
    exact h2
  · obtain ⟨w, h1, h2⟩ := (C99_bm25_weights L (by positivity) (freeFloat 53) (freeFloat 53) rfl (by rw [hu]; norm_num) rfl (by rw [hu]; norm_num)
      1.2 0 (by norm_num) le_rfl (by norm_num) ⟨5, [(0, 0, 4), (1, 0, 1)]⟩ hX 2 (fun i => List.length_filter_le _ _) t ht d1).2.2 0 0 0 4 rfl
    refine ⟨w, h1, ?_⟩
    simp only [hcount, lengthNorm] at h2
    norm_num at h2 ⊢
    exact h2

end Implicit
