import Verif.Model.FloatTraining
import Verif.Model.Rounding
import Verif.Spec.Cosine
/-!
# Least squares rows in floating point

`FloatOps.leastSquaresRow` (`implicit/cpu/_als.pyx:96-138`) on real numbers with rounded operations.  Overflow and underflow are
not included.
-/

namespace Implicit

variable {f : Nat}

/-- Operations with a relative rounding error of at most `u`.  `axpy t y s` may round the product before adding it (`p`), or fuse
the two operations (`p = t * y`), or return `s` at once if `t` is zero (as BLAS does). -/
structure FloatOps.Accurate (A : FloatOps ℝ) (u : ℝ) : Prop where
  nonneg : 0 ≤ u
  zero : A.zero = 0
  one : A.one = 1
  add : ∀ a b, |A.add a b - (a + b)| ≤ u * |a + b|
  sub : ∀ a b, |A.sub a b - (a - b)| ≤ u * |a - b|
  mul : ∀ a b, |A.mul a b - a * b| ≤ u * |a * b|
  lt : ∀ a b, A.lt a b = true ↔ a < b
  axpy : ∀ t y s, ∃ p, |p - t * y| ≤ u * |t * y| ∧ |A.axpy t y s - (s + p)| ≤ u * |s + p|

/-- The operations of a rounding. -/
noncomputable def roundOps (r : Rounding ℝ) (fused : Bool) : FloatOps ℝ where
  zero := 0
  one := 1
  add a b := r.rnd (a + b)
  sub a b := r.rnd (a - b)
  mul a b := r.rnd (a * b)
  div a b := r.rnd (a / b)
  lt a b := decide (a < b)
  axpy t y s := if fused then r.rnd (s + t * y) else r.rnd (s + r.rnd (t * y))
  isNaN _ := false

/-- `Y.T.dot(Y)` (`implicit/cpu/als.py:428,435`, `implicit/cpu/_als.pyx:70`): a BLAS product, each entry summed in its own order. -/
noncomputable def roundGram (r : Rounding ℝ) (Y : List (Vec f ℝ)) (order : Fin f → Fin f → SumTree Y.length) : Mat f ℝ :=
  fun a b => (order a b).eval r (fun i => Y[i] a) (fun i => Y[i] b)

/-- The matrix `posv(b"U", …)` (`implicit/cpu/_als.pyx:127`) is given: it reads one triangle only.  `A` is stored by rows and
LAPACK reads by columns, so the upper triangle of LAPACK is the lower one here. -/
noncomputable def lowerPart (A : Mat f ℝ) : Mat f ℝ := fun a b => if b ≤ a then A a b else A b a

/-- What is assumed of `posv`: it reports no error if the matrix is clearly positive definite, and the residual of its answer is
small, both compared with the trace of the matrix.  For a Cholesky factorisation in floating point the constants are
`f γ(f+1) / (1 - γ(f+1))` and `γ(3f+1) / (1 - γ(f+1))`, with `γ(k) = k u / (1 - k u)` (Higham, "Accuracy and Stability of Numerical
Algorithms", theorems 10.7, 10.3 and 10.4). -/
structure StableSolver (κ : ℝ) (posv : Mat f ℝ → Vec f ℝ → Option (Vec f ℝ)) : Prop where
  nonneg : 0 ≤ κ
  solves : ∀ A b, (∀ x, x ≠ 0 → κ * (∑ a, A a a) * dot x x < dot x (mulVec (lowerPart A) x)) → ∃ x, posv A b = some x
  residual : ∀ A b x, posv A b = some x → Spec.length (mulVec (lowerPart A) x - b) ≤ κ * (∑ a, A a a) * Spec.length x

/-- One row of `recalculate_user` and `recalculate_item` (`implicit/cpu/als.py:202-271`), of `partial_fit_*`, and of `fit` without
conjugate gradients: `_least_squares` with the cached matrix `YtY` (`implicit/cpu/_als.pyx:75-142`).  `row` has the values after
multiplication by `alpha` and the conversion to `float32`. -/
noncomputable def roundLeastSquaresRow (A : FloatOps ℝ) (r : Rounding ℝ) (posv : Mat f ℝ → Vec f ℝ → Option (Vec f ℝ)) (Y : List (Vec f ℝ))
    (order : Fin f → Fin f → SumTree Y.length) (reg : ℝ) (row : List (Nat × ℝ)) : Except Err (Vec f ℝ) :=
  A.leastSquaresRow posv (roundGram r Y order) Y reg row

/-- `least_squares` (`implicit/cpu/_als.pyx:67-142`), one half of an iteration of `fit` without conjugate gradients. -/
noncomputable def roundLeastSquares (A : FloatOps ℝ) (r : Rounding ℝ) (posv : Mat f ℝ → Vec f ℝ → Option (Vec f ℝ)) (C : SpRows ℝ)
    (X Y : List (Vec f ℝ)) (order : Fin f → Fin f → SumTree Y.length) (reg : ℝ) : Except Err (List (Vec f ℝ)) :=
  (List.range X.length).mapM fun u =>
    match C[u]? with
    | none => .error .undefinedBehaviour
    | some row => roundLeastSquaresRow A r posv Y order reg row

end Implicit
