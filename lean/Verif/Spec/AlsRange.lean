import Verif.Spec.RowError
/-!
# Specification: when ALS with the direct solver stays in range
-/

namespace Implicit.Spec

/-- How large the system of a row can be: `n` fixed factors of length at most `B`, and stored values `c` with sum of `|c| + 1` at most `T`. -/
def alsSize (f n : Nat) (T B reg : ℝ) : ℝ := reg * f + (n + T) * B ^ 2

/-- Rows with at most `m` entries, whose positive values sum to at most `W`; `u` is the rounding error, `κ` that of the solver, `P` the largest
number it is given. -/
structure AlsRange (u κ P : ℝ) (f n m : Nat) (T W B reg : ℝ) : Prop where
  reg_pos : 0 < reg
  length_nonneg : 0 ≤ B
  /-- the exact factors have at most half the length -/
  mass : 4 * W ≤ reg * B ^ 2
  /-- the regularisation exceeds the rounding errors -/
  target : systemGrowth u n m * W ≤ reg / 4
  small : (systemGrowth u n m + κ * (1 + systemGrowth u n m)) * alsSize f n T B reg ≤ reg / 4
  /-- nothing overflows -/
  range : (1 + systemGrowth u n m) * (alsSize f n T B reg + T * (1 + B)) ≤ P

end Implicit.Spec
