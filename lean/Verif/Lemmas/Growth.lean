import Mathlib.Analysis.SpecialFunctions.Pow.NNReal

namespace Implicit

theorem pow_growth {u : ℝ} (hu : 0 ≤ u) : ∀ k : Nat, k * u ≤ 1 / 2 → (1 + u) ^ k ≤ 1 + 2 * k * u := by
  intro k
  induction k with
  | zero => intro _; simp
  | succ k ih =>
    intro h
    push_cast at h ⊢
    have h1 : (k : ℝ) * u ≤ 1 / 2 := by linarith
    have h2 := ih h1
    have h3 : (1 + u) ^ k * (1 + u) ≤ (1 + 2 * k * u) * (1 + u) := mul_le_mul_of_nonneg_right h2 (by linarith)
    have h4 : (k : ℝ) * u * u ≤ 1 / 2 * u := mul_le_mul_of_nonneg_right h1 hu
    rw [pow_succ]
    linarith

end Implicit
