import Verif.Spec.ALS
import Verif.Spec.Cosine
import Mathlib.Algebra.BigOperators.Group.List.Basic
/-!
# Specification: the error of a least squares solution computed in floating point

`Y` are the factors of the other side, `row` the stored confidences.
-/

namespace Implicit.Spec

variable {f : Nat}

/-- The size of the system of a row, measured without cancellation: the trace of its matrix with all signs dropped. -/
noncomputable def systemSize (Y : List (Fin f → ℝ)) (row : List (Nat × ℝ)) (reg : ℝ) : ℝ :=
  reg * f + (Y.map fun y => length y ^ 2).sum + (row.map fun e => (|e.2| + 1) * length (Y[e.1]?.getD 0) ^ 2).sum

/-- The size of the right-hand side: the liked entities, weighted. -/
noncomputable def targetSize (Y : List (Fin f → ℝ)) (row : List (Nat × ℝ)) : ℝ :=
  (row.map fun e => (if 0 < e.2 then e.2 else 0) * length (Y[e.1]?.getD 0)).sum

/-- The relative error of a sum that takes `n` stored factors and `m` stored confidences. -/
def systemGrowth (u : ℝ) (n m : Nat) : ℝ := (1 + u) ^ (n + m + 5) - 1

/-- How far the computed vector `x` may be from satisfying the exact normal equations: `u` is the rounding error of one
operation, `κ` that of the solver. -/
noncomputable def rowResidual (u κ : ℝ) (Y : List (Fin f → ℝ)) (row : List (Nat × ℝ)) (reg : ℝ) (x : Fin f → ℝ) : ℝ :=
  let g := systemGrowth u Y.length row.length
  (g + κ * (1 + g)) * systemSize Y row reg * length x + g * targetSize Y row

/-- How much the objective may exceed its minimum over one side, `X` being the vectors computed for the rows `C`. -/
noncomputable def sweepError (u κ : ℝ) (Y : List (Fin f → ℝ)) (C : List (List (Nat × ℝ))) (reg : ℝ) (X : List (Fin f → ℝ)) : ℝ :=
  ∑ i : Fin X.length, rowResidual u κ Y (C[i.1]?.getD []) reg X[i] ^ 2 / reg

/-- How far the residual that `k` rounds of conjugate gradients maintain may be from the true one: `u` is the rounding error of one
operation, and no factor that fewer rounds give is longer than `X`. -/
noncomputable def cgError (u : ℝ) (k : Nat) (Y : List (Fin f → ℝ)) (row : List (Nat × ℝ)) (reg X : ℝ) : ℝ :=
  (k + 1) * (1 + u) ^ (4 * k) * ((1 + u) ^ (Y.length + row.length + f + 12) - 1) *
    (12 * systemSize Y row reg * X + targetSize Y row)

end Implicit.Spec
