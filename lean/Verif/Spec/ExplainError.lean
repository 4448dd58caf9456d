import Verif.Spec.RowError
/-!
# Specification: the error of an explanation computed in floating point

`Y` are the item factors, `row` the stored confidences of the user, `y` the factor of the explained item.  `u` is the rounding error of an
operation on factors, `v` that of an operation in the precision of the answer, `κ` that of the Cholesky solver.
-/

namespace Implicit.Spec

variable {f : Nat}

/-- The error of the matrix and of the solver, per unit of length of the solution. -/
noncomputable def explainNoise (u κ : ℝ) (Y : List (Fin f → ℝ)) (row : List (Nat × ℝ)) (reg : ℝ) : ℝ :=
  (systemGrowth u Y.length row.length + κ * (1 + systemGrowth u Y.length row.length)) * systemSize Y row reg

/-- The error, per unit of confidence times length of an item, of an inner product followed by `m` operations. -/
noncomputable def explainError (u v κ : ℝ) (Y : List (Fin f → ℝ)) (row : List (Nat × ℝ)) (reg : ℝ) (y : Fin f → ℝ) (m : Nat) : ℝ :=
  ((1 + v) ^ (f + m) - 1 + explainNoise u κ Y row reg / reg) * (length y / (reg - explainNoise u κ Y row reg))

/-- `out` lists the `N` largest contributions `confidence * (w · Y i)` of the entries that are not negative, best first.  The error of a
contribution is at most `ε` times its confidence and the length of its item. -/
structure ExplainsWithin (Y : List (Fin f → ℝ)) (row : List (Nat × ℝ)) (w : Fin f → ℝ) (ε : ℝ) (N : Nat) (out : List (Nat × ℝ)) : Prop where
  /-- as many as asked for, or all if there are fewer -/
  length : out.length = min N (row.filter fun e => 0 ≤ e.2).length
  /-- no item is listed twice -/
  distinct : (out.map Prod.fst).Nodup
  /-- a listed score is the contribution of a stored entry -/
  faithful : ∀ p ∈ out, ∃ c, (p.1, c) ∈ row ∧ 0 ≤ c ∧
    |p.2 - c * ∑ j, w j * (Y[p.1]?.getD 0) j| ≤ ε * (c * Spec.length (Y[p.1]?.getD 0))
  /-- an entry that is not listed contributes no more than any listed score -/
  best : ∀ e ∈ row, 0 ≤ e.2 → e.1 ∉ out.map Prod.fst → ∀ p ∈ out,
    e.2 * ∑ j, w j * (Y[e.1]?.getD 0) j ≤ p.2 + ε * (e.2 * Spec.length (Y[e.1]?.getD 0))
  /-- best first -/
  sorted : out.Pairwise fun p q => q.2 ≤ p.2

end Implicit.Spec
