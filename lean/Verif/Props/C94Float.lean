import Verif.Lemmas.Ieee
import Verif.Props.C94Fit
import Mathlib.Analysis.Complex.ExponentialBounds
/-!
# C94 — the defaults in single precision
-/

namespace Implicit

open Spec (Within sumBound lmfGradient lmfStep lmfReach)

/-- Roundings in a sum of at most `2 ^ 24` terms. -/
theorem growth_le_three {k : Nat} (hk : k ≤ 16777216) : (1 + 1 / 16777216 : ℝ) ^ k ≤ 3 := by
  have h1 : (1 + 1 / 16777216 : ℝ) ^ k ≤ Real.exp (1 / 16777216) ^ k :=
    pow_le_pow_left₀ (by norm_num) (by linarith [Real.add_one_le_exp (1 / 16777216 : ℝ)]) k
  rw [← Real.exp_nat_mul] at h1
  have h2 : (k : ℝ) * (1 / 16777216) ≤ 1 := by
    have : (k : ℝ) ≤ 16777216 := by exact_mod_cast hk
    linarith
  have h3 := Real.exp_le_exp.mpr h2
  linarith [Real.exp_one_lt_d9]

theorem sumBound_float {Q : ℝ} (hQ : 0 ≤ Q) {k : Nat} (hk : k + 1 ≤ 16777216) : sumBound (1 / 16777216) Q k ≤ 3 * k * Q := by
  unfold sumBound
  exact mul_le_mul_of_nonneg_right (mul_le_mul_of_nonneg_right (growth_le_three hk) (Nat.cast_nonneg k)) hQ

theorem gradient_float : lmfGradient (1 / 16777216) (1 / 10 ^ 40) (10 ^ 6) 64 2001000 ≤ 4 * 10 ^ 14 := by
  unfold lmfGradient
  refine (sumBound_float (by positivity) (by norm_num)).trans ?_
  norm_num

theorem step_float {lr G : ℝ} (hl : lr ≤ 1) (hG : G ≤ 4 * 10 ^ 14) : lmfStep (1 / 16777216) (1 / 10 ^ 40) lr G ≤ 1001 / 1000 := by
  unfold lmfStep
  have h1 : (1 + 1 / 16777216 : ℝ) ^ 2 / (1 - 1 / 16777216) ^ 4 ≤ 10001 / 10000 := by norm_num
  have h2 : (0 : ℝ) ≤ (1 + 1 / 16777216 : ℝ) ^ 2 / (1 - 1 / 16777216) ^ 4 := by norm_num
  have h3 : (1 + 1 / 16777216 : ℝ) ^ 2 / (1 - 1 / 16777216) ^ 4 * lr ≤ 10001 / 10000 := by nlinarith
  have h4 : (1 / 10 ^ 40 : ℝ) * (G * (1 + 1 / 16777216) + 1) ≤ 1 / 10 ^ 40 * (4 * 10 ^ 14 * (1 + 1 / 16777216) + 1) :=
    mul_le_mul_of_nonneg_left (by linarith) (by norm_num)
  have h5 : (1 / 10 ^ 40 : ℝ) * (4 * 10 ^ 14 * (1 + 1 / 16777216) + 1) ≤ 1 / 10000 := by norm_num
  linarith

theorem reach_float {step : ℝ} (hs : step ≤ 1001 / 1000) : lmfReach (1 / 16777216) (1 / 10 ^ 40) 10 step 30 ≤ 41 := by
  unfold lmfReach
  have h1 : ((1 + 1 / 16777216 : ℝ) ^ 2) ^ 30 ≤ 1001 / 1000 := by norm_num
  have h2 : (0 : ℝ) ≤ ((1 + 1 / 16777216 : ℝ) ^ 2) ^ 30 := by positivity
  have h3 : (10 : ℝ) + (30 : Nat) * (step + 2 * (1 / 10 ^ 40)) ≤ 404 / 10 := by
    have : (2 : ℝ) * (1 / 10 ^ 40) ≤ 1 / 1000 := by norm_num
    push_cast
    linarith
  calc ((1 + 1 / 16777216 : ℝ) ^ 2) ^ 30 * (10 + (30 : Nat) * (step + 2 * (1 / 10 ^ 40)))
      ≤ ((1 + 1 / 16777216 : ℝ) ^ 2) ^ 30 * (404 / 10) := mul_le_mul_of_nonneg_left h3 h2
    _ ≤ 1001 / 1000 * (404 / 10) := mul_le_mul_of_nonneg_right h1 (by norm_num)
    _ ≤ 41 := by norm_num

theorem sizes_float {Ω eps lr : ℝ} {f : Nat} (hΩ : 10 ^ 38 ≤ Ω) (he : |eps - 1 / 10 ^ 6| ≤ 1 / 10 ^ 9) (h0 : 0 ≤ lr) (hl : lr ≤ 1) (hf : f ≤ 1000) :
    LmfSizes (1 / 16777216) (1 / 10 ^ 40) Ω eps (1 / 1024) lr (10 ^ 6) 64 2001000 f 30 := by
  obtain ⟨e1, e2⟩ := abs_le.mp he
  refine ⟨by norm_num, by norm_num, by norm_num, by norm_num, by linarith, by norm_num, h0, by norm_num, ?_, by norm_num, ?_, ?_, ?_⟩
  · norm_num at e1 ⊢
    linarith
  · refine (sumBound_float (by positivity) (by omega)).trans ?_
    have : (f : ℝ) ≤ 1000 := by exact_mod_cast hf
    have h2 : (64 * 64 + 2 * (1 / 10 ^ 40) : ℝ) ≤ 5000 := by norm_num
    have h3 : 3 * (f : ℝ) * (64 * 64 + 2 * (1 / 10 ^ 40)) ≤ 3 * 1000 * 5000 := by
      refine mul_le_mul (by linarith) h2 (by norm_num) (by norm_num)
    linarith
  · have hG := gradient_float
    have hG0 : 0 ≤ lmfGradient (1 / 16777216) (1 / 10 ^ 40) (10 ^ 6) 64 2001000 := by
      unfold lmfGradient sumBound
      positivity
    generalize lmfGradient (1 / 16777216) (1 / 10 ^ 40) (10 ^ 6) 64 2001000 = G at *
    have h1 : G * G ≤ 4 * 10 ^ 14 * (4 * 10 ^ 14) := mul_le_mul hG hG hG0 (by norm_num)
    have h2 := sumBound_float (Q := G * G + 2 * (1 / 10 ^ 40)) (by positivity) (k := 30 + 1) (by norm_num)
    have h3 : 3 * ((30 + 1 : Nat) : ℝ) * (G * G + 2 * (1 / 10 ^ 40)) ≤ 93 * (4 * 10 ^ 14 * (4 * 10 ^ 14) + 1) := by
      have : (2 * (1 / 10 ^ 40) : ℝ) ≤ 1 := by norm_num
      push_cast
      linarith
    generalize sumBound (1 / 16777216) (G * G + 2 * (1 / 10 ^ 40)) (30 + 1) = S at *
    have h4 : eps ≤ 1 := by
      norm_num at e2
      linarith
    have h5 : S ≤ 10 ^ 32 := by linarith
    have h6 : (eps + S) * (1 + 1 / 16777216) + 1 / 10 ^ 40 ≤ (1 + 10 ^ 32) * (1 + 1 / 16777216) + 1 / 10 ^ 40 := by linarith
    have h7 : (1 + ((1 + 10 ^ 32) * (1 + 1 / 16777216) + 1 / 10 ^ 40)) * (1 + 1 / 16777216) + 1 / 10 ^ 40 ≤ (10 ^ 38 : ℝ) := by norm_num
    linarith
  · have h1 : lr / (1 / 1024 * (1 - 1 / 16777216) ^ 2) ≤ 1 / (1 / 1024 * (1 - 1 / 16777216) ^ 2) :=
      div_le_div_of_nonneg_right hl (by norm_num)
    have h2 : (1 / (1 / 1024 * (1 - 1 / 16777216) ^ 2) * (1 + 1 / 16777216) + 1 / 10 ^ 40 : ℝ) ≤ 10 ^ 38 := by norm_num
    linarith

/-- **Single precision is enough** for up to 30 epochs (the default) with learning rate at most 1 (the default), on matrices with up to a million
entries of size up to a million per row and column, for up to 998 factors that are at most 10 initially: `fit` raises no error, and all factors
of the result are numbers of size at most 41.  (`eps` is the constant `1e-6` as a `double`; ` 10 ^ 38` is below the largest `float`.) -/
theorem C94_float {factors : Nat} {r s : Rounding ℝ} (hru : r.u ≤ 1 / 16777216) (hrη : r.η ≤ 1 / 10 ^ 40) (hsu : s.u ≤ 1 / 16777216)
    (hsη : s.η ≤ 1 / 10 ^ 40) (hr : r.Orderly 2) (hs : s.Orderly 2) {Ω Ω' : ℝ} (hΩ : 10 ^ 38 ≤ Ω) (hΩ' : Ω ≤ Ω')
    {ex : ℝ → ℝ} (h0 : ∀ x, 0 ≤ ex x) (h1 : ∀ x ≤ 0, ex x ≤ 1) {eps lr reg : ℝ} (he : |eps - 1 / 10 ^ 6| ≤ 1 / 10 ^ 9) (hlr : 0 ≤ lr) (hlr1 : lr ≤ 1)
    (hreg : |reg| ≤ 10 ^ 6) (hf : factors ≤ 998) {negProp : Int} {cols : Nat} {C : SpRows (Option ℝ)}
    (hC : ∀ row ∈ C, ∀ e ∈ row, e.1 < cols ∧ Within (10 ^ 6) e.2) (hn : ∀ row ∈ C, row.length ≤ 1000000)
    (hn' : ∀ col ∈ transposeRows cols C, col.length ≤ 1000000) {draws : List LmfDraws} (hT : draws.length ≤ 30)
    (hd : ∀ d ∈ draws, ∀ u k, d.user u k < C.flatten.length ∧ d.item u k < C.flatten.length)
    {m : Factors (factors + 2) (Option ℝ)} (hmu : m.user.length = C.length) (hmi : m.item.length = cols)
    (hu : ∀ x ∈ m.user, ∀ a, Within 10 (x a)) (hi : ∀ x ∈ m.item, ∀ a, Within 10 (x a)) :
    ∃ m', limitLmfFit r s Ω Ω' ex eps lr reg negProp cols C draws m = .ok m' ∧ m'.user.length = C.length ∧ m'.item.length = cols ∧
      (∀ x ∈ m'.user, ∀ a, Within 41 (x a)) ∧ ∀ x ∈ m'.item, ∀ a, Within 41 (x a) := by
  have H := sizes_float (f := factors + 2) hΩ he hlr hlr1 (by omega)
  have hstep := step_float hlr1 gradient_float
  have hreach := reach_float hstep
  have hst0 : 0 ≤ lmfStep (1 / 16777216) (1 / 10 ^ 40) lr (lmfGradient (1 / 16777216) (1 / 10 ^ 40) (10 ^ 6) 64 2001000) := by
    have hG := H.gradient_nonneg
    generalize lmfGradient (1 / 16777216) (1 / 10 ^ 40) (10 ^ 6) 64 2001000 = G at hG ⊢
    have h2 : (0 : ℝ) ≤ (1 + 1 / 16777216 : ℝ) ^ 2 / (1 - 1 / 16777216) ^ 4 := by norm_num
    exact add_nonneg (mul_nonneg h2 hlr) (by positivity)
  obtain ⟨m', e1, e2, e3, e4, e5⟩ := C94_lmf H hru hrη hsu hsη hr hs hΩ' h0 h1 hreg (by norm_num : (1 : ℝ) ≤ 10) (by linarith) (negProp := negProp) hC
    (fun row hrow => by have := hn row hrow; omega) (fun col hcol => by have := hn' col hcol; omega) hT hd hmu hmi hu hi
  have hle := (reach_mono (B := 10) (by norm_num) (by norm_num) (by norm_num) hst0 hT).trans hreach
  exact ⟨m', e1, e2, e3, fun x hx a => within_mono (e4 x hx a) hle, fun x hx a => within_mono (e5 x hx a) hle⟩

/-- IEEE single and double precision are among these. -/
theorem float_sizes : (ieee 24 (-149) : Rounding ℝ).u ≤ 1 / 16777216 ∧ (ieee 24 (-149) : Rounding ℝ).η ≤ 1 / 10 ^ 40 ∧
    (ieee 53 (-1074) : Rounding ℝ).u ≤ 1 / 16777216 ∧ (ieee 53 (-1074) : Rounding ℝ).η ≤ 1 / 10 ^ 40 ∧
    (ieee 24 (-149) : Rounding ℝ).Orderly 2 ∧ (ieee 53 (-1074) : Rounding ℝ).Orderly 2 ∧
    (10 ^ 38 : ℝ) ≤ (2 - 1 / 2 ^ 23) * 2 ^ 127 ∧ ((2 - 1 / 2 ^ 23) * 2 ^ 127 : ℝ) ≤ (2 - 1 / 2 ^ 52) * 2 ^ 1023 := by
  have h1 := ieee_orderly (R := ℝ) 24 (by norm_num) (-149) (by norm_num)
  have h2 := double_orderly (R := ℝ)
  refine ⟨?_, ?_, ?_, ?_, ⟨h1.mono, fun k hk => h1.exact k (hk.trans (by norm_num))⟩, ⟨h2.mono, fun k hk => h2.exact k (hk.trans (by norm_num))⟩,
    by norm_num, ?_⟩
  · show (2 : ℝ) ^ (-((24 : Nat) : Int)) ≤ _
    norm_num
  · show (2 : ℝ) ^ ((-149 : Int) - 1) ≤ _
    norm_num
  · show (2 : ℝ) ^ (-((53 : Nat) : Int)) ≤ _
    norm_num
  · show (2 : ℝ) ^ ((-1074 : Int) - 1) ≤ _
    refine (zpow_le_zpow_right₀ (by norm_num) (by norm_num : (-1074 : Int) - 1 ≤ -150)).trans ?_
    norm_num
  · have h : (2 : ℝ) ^ 128 ≤ 2 ^ 1023 := pow_le_pow_right₀ (by norm_num) (by norm_num)
    have h' : ((2 - 1 / 2 ^ 23) * 2 ^ 127 : ℝ) ≤ 2 ^ 128 := by norm_num
    have h'' : (1 : ℝ) ≤ 2 - 1 / 2 ^ 52 := by norm_num
    exact h'.trans (h.trans (le_mul_of_one_le_left (by positivity) h''))

end Implicit
