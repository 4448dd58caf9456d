import Mathlib.Analysis.SpecialFunctions.Log.Basic
/-!
# Specification: errors of weighted ratings

`a` and `b` are the unit roundoffs of the ratings' precision and of double precision, `v` the relative error of the logarithms.
-/

namespace Implicit.Spec

/-- `w` is the positive number `x` up to the factor `G`. -/
def WithinFactor (G w x : ℝ) : Prop := 0 < w ∧ x / G ≤ w ∧ w ≤ G * x

/-- Relative error of `log n - log(1 + c)` for `c + 1 < n`: each logarithm is off by `v` of at most `log n`, and the difference is at
least `1/n`. -/
noncomputable def idfError (v : ℝ) (n : Nat) : ℝ := 2 * v * n * Real.log n

/-- Factor of a TF-IDF weight: root, logarithms, `idf` and product. -/
noncomputable def tfidfFactor (a b v : ℝ) (n : Nat) : ℝ := 1 / (1 - a) * (1 / (1 - idfError v n)) * (1 / (1 - b)) ^ 2

/-- Factor of a BM25 weight in a matrix of `n` rows with at most `m` entries each. -/
noncomputable def bm25Factor (a b v : ℝ) (n m : Nat) : ℝ :=
  (1 / (1 - a)) ^ (2 * m + n + 11) * (1 / (1 - idfError v n)) * (1 / (1 - b)) ^ 4

end Implicit.Spec
