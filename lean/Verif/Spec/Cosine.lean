import Mathlib.Analysis.Real.Sqrt
/-!
# Specification of cosine similarity
-/

namespace Implicit.Spec

open Finset

/-- Euclidean length. -/
noncomputable def length {f : Nat} (x : Fin f → ℝ) : ℝ := Real.sqrt (∑ i, x i ^ 2)

/-- The cosine of the angle between two vectors, `0` if one of them is zero. -/
noncomputable def cosine {f : Nat} (x y : Fin f → ℝ) : ℝ :=
  open Classical in
  if x = 0 ∨ y = 0 then 0 else (∑ i, x i * y i) / (length x * length y)

end Implicit.Spec
