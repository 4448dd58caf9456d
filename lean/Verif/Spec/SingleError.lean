import Mathlib.Data.Real.Basic
/-!
# Error of cosine similarities of ratings in single precision
-/

namespace Implicit.Spec

/-- Factor of a length: squares in single precision (unit roundoff `a`), sum of up to `m` squares and root in double precision (`b`). -/
noncomputable def singleLength (a b : ℝ) (m : Nat) : ℝ := 1 / (1 - a) * (1 / (1 - b)) ^ (m + 1)

/-- How far a cosine similarity may be off if every item has at most `m` ratings. -/
noncomputable def singleCosineError (a b : ℝ) (m : Nat) : ℝ := (1 + b) ^ (m + 3) / (2 - singleLength a b m) ^ 2 - 1

end Implicit.Spec
