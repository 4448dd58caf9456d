import Verif.Props.C100
import Verif.Props.C97Examples
/-!
# C100: single precision, models after training, and what happens beyond the range
-/

namespace Implicit

section
variable {R : Type} [Field R] [LinearOrder R] [IsStrictOrderedRing R] {f n : Nat}

theorem growth_le_two {u : R} (hu : 0 ≤ u) (hf : f * u ≤ 1 / 2) : (1 + u) ^ f ≤ 2 := by
  rcases Nat.eq_zero_or_pos f with rfl | h
  · simp
  have h1 : (1 : R) ≤ f := by exact_mod_cast h
  have hu1 : u ≤ 1 / 2 := by nlinarith
  have h2 : 1 + (f : R) * (-u) ≤ (1 + -u) ^ f := one_add_mul_le_pow (by linarith) f
  have h3 : (1 + u) ^ f * (1 + -u) ^ f ≤ 1 := by
    rw [← mul_pow]
    exact pow_le_one₀ (by nlinarith) (by nlinarith)
  have h4 : 0 ≤ (1 + u) ^ f := pow_nonneg (by linarith) f
  nlinarith

/-- The range of a score whose entries are at most `B`, for up to `1 / (2u)` columns. -/
theorem range_of_entries {u η : R} (hu : 0 ≤ u) (hη : 0 ≤ η) (hf : f * u ≤ 1 / 2) {x y : Vec f R} {B : R} (hx : ∀ i, |x i| ≤ B)
    (hy : ∀ i, |y i| ≤ B) : Spec.scoreRange u η x y ≤ 2 * (f * B ^ 2) + 4 * f * η := by
  refine (C100_entries u η hu x y B hx hy).trans ?_
  have h := growth_le_two (f := f) hu hf
  have hf0 : (0 : R) ≤ f := Nat.cast_nonneg f
  have h1 := mul_le_mul_of_nonneg_right h (by positivity : 0 ≤ f * B ^ 2)
  have h2 := mul_le_mul_of_nonneg_right h (by positivity : 0 ≤ 2 * f * η)
  nlinarith

/-- **C100** (single precision).  Models with up to 1024 columns whose entries are at most `2^58` in absolute value answer every query for which
the filter leaves `k` items without overflow. -/
theorem C100_float32 [FloorRing R] (hf : f ≤ 1024) (order : Fin n → SumTree f) (ho : ∀ j, (order j).Complete) (filter : List (Fin n)) (k : Nat)
    (hk : 1 ≤ k) (q : Vec f R) (items : Fin n → Vec f R) (hq : ∀ i, |q i| ≤ 2 ^ 58) (h : ∀ j, j ∉ filter → ∀ i, |items j i| ≤ 2 ^ 58)
    (hmany : k ≤ ((List.finRange n).filter fun j => j ∉ filter).length) :
    ∃ out, extRecommend (binaryFloat 24 (-149)) (2 ^ 128 - 2 ^ 104) order filter k q items = .ok (out.map fun p => (.fin p.1, p.2)) ∧
      Spec.ApproxTop k (fun j => j ∉ filter) (fun j => dot q (items j))
        (fun j => Spec.scoreError (2 ^ (-24 : Int)) (2 ^ (-150 : Int)) q (items j)) out := by
  have hu : (binaryFloat 24 (-149) : Rounding R).u = 2 ^ (-24 : Int) := rfl
  have hη : (binaryFloat 24 (-149) : Rounding R).η = 2 ^ (-150 : Int) := rfl
  rw [← hu, ← hη]
  refine C100_recommend _ _ order ho filter k hk q items (fun j hj => ?_) hmany
  have hF : (f : R) ≤ 1024 := by exact_mod_cast hf
  have hu' : (binaryFloat 24 (-149) : Rounding R).u ≤ 1 / 2048 := by rw [hu]; norm_num
  have hη' : (binaryFloat 24 (-149) : Rounding R).η ≤ 1 := by rw [hη]; norm_num
  have h0 := (binaryFloat 24 (-149) : Rounding R).u_nonneg
  have h1 := (binaryFloat 24 (-149) : Rounding R).η_nonneg
  have hf0 : (0 : R) ≤ f := Nat.cast_nonneg f
  refine (range_of_entries h0 h1 (by nlinarith) hq (h j hj)).trans_lt ?_
  have h2 : 4 * (f : R) * (binaryFloat 24 (-149) : Rounding R).η ≤ 4096 := by nlinarith
  have h3 : 2 * ((f : R) * (2 ^ 58) ^ 2) ≤ 2 * (1024 * (2 ^ 58) ^ 2) := by
    have := mul_le_mul_of_nonneg_right hF (by positivity : (0 : R) ≤ (2 ^ 58) ^ 2)
    linarith
  refine (add_le_add h3 h2).trans_lt ?_
  norm_num

end

/-! ## After BPR training -/

open Spec in
/-- **C100** (BPR).  Training as in `C97_float`: one thread, up to 100 factors and a million users and items, 10^8 samples, default rates.  Then
`recommend` for every user of the trained model, with every filter that leaves `k` items, has finite scores and the guarantees of C62. -/
theorem C100_bpr {Th : Type} [DecidableEq Th] [Unique Th] [Fintype Th] {users items factors : Nat} {r s : Rounding ℝ}
    (hru : r.u ≤ 1 / 16777216) (hrη : r.η ≤ 1 / 10 ^ 45) (hsu : s.u ≤ 1 / 16777216) (hsη : s.η ≤ 1 / 10 ^ 45) (hr : r.Orderly 2) (hs : s.Orderly 2)
    {Ω Ω' : ℝ} (hΩ : 10 ^ 38 ≤ Ω) {ex : ℝ → ℝ} (h0 : ∀ x, 0 ≤ ex x) (h1 : ∀ x, 0 ≤ x → 15 / 16 * Real.exp x ≤ ex x) {lr reg : ℝ}
    (hlr : |lr - 1 / 100| ≤ 1 / 10 ^ 9) (hreg : |reg - 1 / 100| ≤ 1 / 10 ^ 9) (hf0 : 0 < factors) (hf : factors ≤ 100) (hus : users ≤ 10 ^ 6)
    (hit : items ≤ 10 ^ 6) (matrix : List (List Nat)) (hm : matrix.length ≤ users) (hcols : ∀ u i, Likes matrix u i → i < items)
    (σ : Th → BprScratch (Option ℝ)) (epochs : List (BprEpoch Th)) (he : ∀ e ∈ epochs, e.Valid true (bprRows true matrix) factors)
    (hn : epochs.length * nnz matrix ≤ 10 ^ 8) (half : Option ℝ) (m : BprCell → Option ℝ) (x : BprCell → ℝ)
    (hx : HasValues users items factors m x) (hone : ∀ u, u < users → x (.user u factors) = 1)
    (hw : FactorsWithin users items factors (1 / factors) x) :
    ∃ m' x', (limitOps r Ω).bprFit users items factors (limitBprSig r s Ω Ω' ex) half (some lr) (some reg) σ epochs m = .ok m' ∧
      HasValues users items factors m' x' ∧
      ∀ u < users, ∀ (order : Fin items → SumTree (factors + 1)) (filter : List (Fin items)) (k : Nat), (∀ j, (order j).Complete) → 1 ≤ k →
        k ≤ ((List.finRange items).filter fun j => j ∉ filter).length →
        ∃ out, extRecommend r Ω order filter k (fun j => x' (.user u j)) (fun i j => x' (.item i j)) = .ok (out.map fun p => (.fin p.1, p.2)) ∧
          Spec.ApproxTop k (fun j => j ∉ filter) (fun i => ∑ j : Fin (factors + 1), x' (.user u j) * x' (.item i j))
            (fun i => Spec.scoreError r.u r.η (fun j : Fin (factors + 1) => x' (.user u j)) fun j => x' (.item i j)) out := by
  obtain ⟨m', x', k1, k2, k3, k4⟩ := C97_float (Ω' := Ω') hru hrη hsu hsη hr hs hΩ h0 h1 hlr hreg hf0 hf hus hit matrix hm hcols σ epochs he hn half m x
    hx hone hw
  refine ⟨m', x', k1, k2, fun u hu order filter k ho hk hmany => ?_⟩
  refine C100_recommend r Ω order ho filter k hk (fun j => x' (.user u j)) (fun i j => x' (.item i j)) (fun i _ => ?_) hmany
  have hF : ((factors + 1 : Nat) : ℝ) ≤ 101 := by exact_mod_cast Nat.succ_le_succ hf
  have hF0 : (0 : ℝ) ≤ ((factors + 1 : Nat) : ℝ) := Nat.cast_nonneg _
  have hq : ∀ j : Fin (factors + 1), |x' (.user u j)| ≤ 10 ^ 17 := by
    intro j
    rcases Nat.lt_succ_iff_lt_or_eq.mp j.2 with h | h
    · exact k4.1 u hu j h
    · rw [h, k3 u hu]
      norm_num
  have hi : ∀ j : Fin (factors + 1), |x' (.item i j)| ≤ 10 ^ 17 := fun j => k4.2 i i.2 j (Nat.lt_succ_iff.mp j.2)
  refine (range_of_entries r.u_nonneg r.η_nonneg ?_ hq hi).trans_lt ?_
  · have := r.u_nonneg
    nlinarith
  · refine lt_of_lt_of_le ?_ hΩ
    have h5 : 4 * ((factors + 1 : Nat) : ℝ) * r.η ≤ 404 := by
      have : r.η ≤ 1 := hrη.trans (by norm_num)
      have := r.η_nonneg
      nlinarith
    have h6 : 2 * (((factors + 1 : Nat) : ℝ) * (10 ^ 17) ^ 2) ≤ 2 * (101 * (10 ^ 17) ^ 2) := by
      have := mul_le_mul_of_nonneg_right hF (by positivity : (0 : ℝ) ≤ (10 ^ 17) ^ 2)
      linarith
    refine (add_le_add h6 h5).trans_lt ?_
    norm_num

/-! ## Beyond the range -/

/-- Finite factors of size `2^100` in single precision: the score of item 0 is `inf - inf`, and since comparisons with NaN are false it is never
replaced.  `recommend` returns item 0 with score NaN, though its true score is 0 and that of item 1 is `2^101`. -/
theorem C100_nan_violated :
    extRecommend (binaryFloat 24 (-149)) (2 ^ 128 - 2 ^ 104) (fun _ : Fin 2 => .add (.leaf 0) (.leaf 1)) [] 1
      (![2 ^ 100, 2 ^ 100] : Vec 2 ℚ) ![![2 ^ 100, -2 ^ 100], ![1, 1]] = .ok [(.nan, 0)] ∧
    dot (![2 ^ 100, 2 ^ 100] : Vec 2 ℚ) ![2 ^ 100, -2 ^ 100] = 0 ∧ dot (![2 ^ 100, 2 ^ 100] : Vec 2 ℚ) ![1, 1] = 2 ^ 101 := by
  decide +kernel

/-- The same two items the other way round: the answer depends on the position. -/
example :
    extRecommend (binaryFloat 24 (-149)) (2 ^ 128 - 2 ^ 104) (fun _ : Fin 2 => .add (.leaf 0) (.leaf 1)) [] 1
      (![2 ^ 100, 2 ^ 100] : Vec 2 ℚ) ![![1, 1], ![2 ^ 100, -2 ^ 100]] = .ok [(.fin (2 ^ 101), 0)] := by
  decide +kernel

/-- A filtered item is returned: its score was overwritten by the lowest float, and the other item has `-inf`. -/
theorem C100_filtered_violated :
    extRecommend (binaryFloat 24 (-149)) (2 ^ 128 - 2 ^ 104) (fun _ : Fin 2 => .leaf 0) [0] 1
      (fun _ : Fin 1 => (2 : ℚ) ^ 100) ![fun _ => 1, fun _ => -2 ^ 100] = .ok [(.fin (-(2 ^ 128 - 2 ^ 104)), 0)] := by
  decide +kernel

/-- Two items with infinite scores are not told apart: item 0 has a fourth of the score of item 1. -/
theorem C100_infinite_violated :
    extRecommend (binaryFloat 24 (-149)) (2 ^ 128 - 2 ^ 104) (fun _ : Fin 2 => .leaf 0) [] 1
      (fun _ : Fin 1 => (2 : ℚ) ^ 100) ![fun _ => 2 ^ 30, fun _ => 2 ^ 32] = .ok [(.posInf, 0)] := by
  decide +kernel

/-- The order of summation decides between finite and infinite: the partial sum `2^127 + 2^127` overflows, `2^127 - 2^127` does not. -/
theorem C100_order_violated :
    (SumTree.add (.add (.leaf 0) (.leaf 1)) (.leaf 2)).extEval (binaryFloat 24 (-149)) (2 ^ 128 - 2 ^ 104)
      (![1, 1, 1] : Vec 3 ℚ) ![2 ^ 127, 2 ^ 127, -2 ^ 127] = .posInf ∧
    (SumTree.add (.leaf 0) (.add (.leaf 1) (.leaf 2))).extEval (binaryFloat 24 (-149)) (2 ^ 128 - 2 ^ 104)
      (![1, 1, 1] : Vec 3 ℚ) ![2 ^ 127, 2 ^ 127, -2 ^ 127] = .fin (2 ^ 127) := by
  decide +kernel

/-- Cosines are within 1, but not where the square of a norm overflows: the one-factor vector `2^64`, whatever the rounding, has an infinite
norm, and its similarity to itself is NaN. -/
theorem C100_similar_violated (r : Rounding ℝ) (hr : r.u ≤ 1 / 4) (h0 : r.η = 0) :
    extSimilar r (2 ^ 127) (fun _ : Fin 1 => .leaf 0) (fun _ => .leaf 0) (.leaf 0) [] 1 (fun _ : Fin 1 => (2 : ℝ) ^ 64) (fun _ _ => 2 ^ 64) =
      .ok [(.nan, 0)] ∧
    Spec.cosine (fun _ : Fin 1 => (2 : ℝ) ^ 64) (fun _ => 2 ^ 64) = 1 := by
  have hinf : (SumTree.leaf (0 : Fin 1)).extEval r (2 ^ 127) (fun _ => (2 : ℝ) ^ 64) (fun _ => 2 ^ 64) = .posInf := by
    unfold SumTree.extEval Ext.ofExact
    have e : (2 : ℝ) ^ 64 * 2 ^ 64 = 2 * 2 ^ 127 := by norm_num
    have hp : (0 : ℝ) < 2 ^ 127 := by positivity
    rw [e]
    generalize (2 : ℝ) ^ 127 = z at *
    rw [if_neg, if_pos (by linarith)]
    have a := abs_le.mp (r.err (2 * z))
    rw [h0, abs_of_pos (by linarith)] at a
    have : r.u * (2 * z) ≤ 1 / 4 * (2 * z) := mul_le_mul_of_nonneg_right hr (by linarith)
    rw [not_le]
    exact lt_of_lt_of_le (by linarith [a.1]) (le_abs_self _)
  have hnorm : extNorm r (2 ^ 127) (.leaf (0 : Fin 1)) (fun _ => (2 : ℝ) ^ 64) = .posInf := by
    unfold extNorm
    rw [hinf]
    simp [Ext.sqrt]
  constructor
  · unfold extSimilar
    simp only [hnorm, hinf, Ext.div]
    unfold extSelect
    rfl
  · have hne : (fun _ : Fin 1 => (2 : ℝ) ^ 64) ≠ 0 := by
      intro h
      have := congrFun h 0
      norm_num at this
    unfold Spec.cosine
    rw [if_neg (by tauto)]
    have : Spec.length (fun _ : Fin 1 => (2 : ℝ) ^ 64) = 2 ^ 64 := by
      unfold Spec.length
      simp only [Finset.univ_unique, Finset.sum_const, Finset.card_singleton, one_smul]
      exact Real.sqrt_sq (by positivity)
    rw [this]
    simp only [Finset.univ_unique, Finset.sum_const, Finset.card_singleton, one_smul]
    exact div_self (by positivity)

/-! ## Examples -/

/-- Three items in single precision, one of them filtered whose score would overflow: hypotheses and outcome. -/
example :
    extRecommend (binaryFloat 24 (-149)) (2 ^ 128 - 2 ^ 104) (fun _ : Fin 3 => .fma 0 (.leaf 1)) [1] 2
      (![2 ^ 58, 1] : Vec 2 ℚ) ![![3, 1], ![2 ^ 100, 0], ![2 ^ 57, -1]] = .ok [(.fin (2 ^ 115), 2), (.fin (3 * 2 ^ 58), 0)] := by
  decide +kernel

example : ∃ out : List (ℚ × Nat), extRecommend (binaryFloat 24 (-149)) (2 ^ 128 - 2 ^ 104) (fun _ : Fin 3 => .fma 0 (.leaf 1)) [1] 2
      (![2 ^ 58, 1] : Vec 2 ℚ) ![![3, 1], ![2 ^ 100, 0], ![2 ^ 57, -1]] = .ok (out.map fun p => (.fin p.1, p.2)) ∧ out.length = 2 := by
  obtain ⟨out, h1, h2⟩ := C100_float32 (by norm_num) (fun _ : Fin 3 => .fma 0 (.leaf 1)) (fun _ => by unfold SumTree.Complete; decide) [1] 2
    (by decide) (![2 ^ 58, 1] : Vec 2 ℚ) ![![3, 1], ![2 ^ 100, 0], ![2 ^ 57, -1]] (by decide +kernel) (by decide +kernel) (by decide)
  exact ⟨out, h1, h2.length⟩

/-- The range is not far from what is needed: one more power of two for 1024 columns and the sum of the products is `2^128`. -/
example : (1024 : ℚ) * (2 ^ 59) ^ 2 = 2 ^ 128 := by norm_num

/-- The hypotheses of `C100_similar` hold for 128 factors in single precision and entries up to 1000. -/
example (n : Nat) (order normOrder : Fin n → SumTree 128) (queryOrder : SumTree 128) (ho : ∀ j, (order j).Complete)
    (hno : ∀ j, (normOrder j).Complete) (hqo : queryOrder.Complete) (k : Nat) (hk : 1 ≤ k) (hkn : k ≤ n) (q : Vec 128 ℝ) (items : Fin n → Vec 128 ℝ)
    (hq : ∀ i, |q i| ≤ 1000) (h : ∀ j i, |items j i| ≤ 1000) :
    ∃ out : List (ℝ × Nat), extSimilar (freeFloat 24) (2 ^ 127) order normOrder queryOrder [] k q items = .ok (out.map fun p => (.fin p.1, p.2)) ∧
      out.length = k := by
  have hu : (freeFloat 24 : Rounding ℝ).u = 2 ^ (-24 : Int) := rfl
  have hr : ∀ x y : Vec 128 ℝ, (∀ i, |x i| ≤ 1000) → (∀ i, |y i| ≤ 1000) → Spec.scoreRange (freeFloat 24 : Rounding ℝ).u 0 x y ≤ 2 ^ 127 := by
    intro x y hx hy
    refine (range_of_entries (freeFloat 24 : Rounding ℝ).u_nonneg le_rfl (by rw [hu]; norm_num) hx hy).trans ?_
    norm_num
  obtain ⟨out, h1, h2⟩ := C100_similar (freeFloat 24) rfl (by rw [hu]; norm_num)
    (by rw [hu]; exact C62_similar_float32.le.trans (by norm_num)) (2 ^ 127) (by norm_num) order normOrder queryOrder ho hno hqo [] k hk q items
    (hr q q hq hq) (fun j _ => ⟨hr _ _ hq (h j), hr _ _ (h j) (h j)⟩) (by simpa using hkn)
  exact ⟨out, h1, h2.length⟩

end Implicit
