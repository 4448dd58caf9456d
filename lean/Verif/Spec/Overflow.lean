import Mathlib.Data.Real.Basic
/-!
# Specification: numbers that stay in range

A value is `none` if it is infinite or not a number.
-/

namespace Implicit.Spec

/-- A finite number of size at most `B`. -/
def Within (B : ℝ) (v : Option ℝ) : Prop := ∃ x, v = some x ∧ |x| ≤ B

/-- How large a sum of `k` rounded terms can be, if `Q` is the size of a term with allowance for underflow. -/
def sumBound (u Q : ℝ) (k : Nat) : ℝ := (1 + u) ^ (k + 1) * k * Q

/-- How large a component of an LMF gradient can be: `n` terms besides the regularisation, weights at most `D`, factors at most `F`. -/
def lmfGradient (u η D F : ℝ) (n : Nat) : ℝ := sumBound u ((D * (1 + u) + η) * F + 2 * η) (n + 1)

/-- How far one epoch of LMF moves a factor: by the learning rate, up to rounding. -/
noncomputable def lmfStep (u η lr G : ℝ) : ℝ := (1 + u) ^ 2 / (1 - u) ^ 4 * lr + η * (G * (1 + u) + 1)

/-- Where the factors can be after `k` epochs, if they were at most `B` in the beginning. -/
noncomputable def lmfReach (u η B step : ℝ) (k : Nat) : ℝ := ((1 + u) ^ 2) ^ k * (B + k * (step + 2 * η))

end Implicit.Spec
