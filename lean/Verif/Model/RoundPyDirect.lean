import Verif.Model.RoundALS
/-!
# The python direct solver in floating point

`implicit/cpu/als.py:479-524` on real numbers with rounded operations (simplified: `A` and `b` are arrays of double precision and some
products are formed in the precision of the factors; `u` is the coarser of the two).
-/

namespace Implicit

variable {f : Nat}

/-- What is assumed of `np.linalg.solve` (LAPACK `gesv`, elimination with partial pivoting): no error unless the matrix is nearly singular,
and a small residual, both compared with the sum of the entries (Higham, "Accuracy and Stability of Numerical Algorithms", theorem 9.5; the
constant contains the growth factor). -/
structure StableElimination (κ : ℝ) (solve : Mat f ℝ → Vec f ℝ → Option (Vec f ℝ)) : Prop where
  nonneg : 0 ≤ κ
  solves : ∀ A b, (∀ x, x ≠ 0 → κ * (∑ a, ∑ b, |A a b|) * Spec.length x < Spec.length (mulVec A x)) → ∃ x, solve A b = some x
  residual : ∀ A b x, solve A b = some x → Spec.length (mulVec A x - b) ≤ κ * (∑ a, ∑ b, |A a b|) * Spec.length x

/-- `user_factor` and `item_factor` (`implicit/cpu/als.py:492-524`) with the matrix `Y.T.dot(Y)`. -/
noncomputable def roundPyRow (A : FloatOps ℝ) (r : Rounding ℝ) (solve : Mat f ℝ → Vec f ℝ → Option (Vec f ℝ)) (Y : List (Vec f ℝ))
    (order : Fin f → Fin f → SumTree Y.length) (reg : ℝ) (row : List (Nat × ℝ)) : Except Err (Vec f ℝ) :=
  A.leastSquaresPyRow solve (roundGram r Y order) Y reg row

/-- The python `least_squares` (`implicit/cpu/als.py:479-490`). -/
noncomputable def roundPyLeastSquares (A : FloatOps ℝ) (r : Rounding ℝ) (solve : Mat f ℝ → Vec f ℝ → Option (Vec f ℝ)) (C : SpRows ℝ)
    (X Y : List (Vec f ℝ)) (order : Fin f → Fin f → SumTree Y.length) (reg : ℝ) : Except Err (List (Vec f ℝ)) :=
  (List.range X.length).mapM fun u =>
    match C[u]? with
    | none => .error .indexError
    | some row => roundPyRow A r solve Y order reg row

end Implicit
