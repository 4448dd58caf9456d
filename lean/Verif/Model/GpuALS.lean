import Verif.Model.ALS
/-!
# The GPU version of ALS

`implicit/gpu/als.py`, `implicit/gpu/als.cu`.  One thread block works on one row, with one thread per
factor; the arithmetic of a row is that of the CPU conjugate gradient solver (`cgRow`).  Left out: the
replacement of a row by zeros when `rsold` is NaN (`implicit/gpu/als.cu:99-107`), which cannot happen
in exact arithmetic, and the rounding to half precision.
-/

namespace Implicit

variable {R : Type} [LinearOrder R] [Field R] {f : Nat}

/-- Parameters of the GPU model (`implicit/gpu/als.py:45-73`; `cg_steps` is always 3). -/
structure GpuALSParams (R : Type) where
  regularization : R
  alpha : R
  cgSteps : Nat
  iterations : Nat

/-- `implicit/gpu/als.cu:25-110,151-197`, `least_squares` with its dimension checks (`ValueError`).
`G` is the regularised Gram matrix, `cols` the number of columns of the sparse matrix.  The kernel runs
over the rows of `X`; a row beyond the sparse matrix reads outside `indptr`. -/
def gpuLeastSquares (tol : R) (steps : Nat) (G : Mat f R) (cols : Nat) (C : SpRows R)
    (X Y : List (Vec f R)) : Except Err (List (Vec f R)) :=
  if X.length < C.length then .error .valueError
  else if Y.length < cols then .error .valueError
  else
    X.zipIdx.mapM fun xu =>
      match C[xu.2]? with
      | none => .error .undefinedBehaviour
      | some row => cgRow G tol steps Y row xu.1

/-- One iteration of `fit` (`implicit/gpu/als.py:157-162`) on a `users` x `items` matrix. -/
def gpuIteration (tol : R) (p : GpuALSParams R) (users items : Nat) (Cui Ciu : SpRows R)
    (m : Factors f R) : Except Err (Factors f R) := do
  let X ← gpuLeastSquares tol p.cgSteps (regularised (gram m.item) p.regularization) items Cui m.user
    m.item
  let Y ← gpuLeastSquares tol p.cgSteps (regularised (gram X) p.regularization) users Ciu m.item X
  pure ⟨X, Y⟩

/-- `n` iterations of `fit`. -/
def gpuIterations (tol : R) (p : GpuALSParams R) (users items : Nat) (Cui Ciu : SpRows R) :
    Nat → Factors f R → Except Err (Factors f R)
  | 0, m => .ok m
  | n + 1, m => do
    let m ← gpuIteration tol p users items Cui Ciu m
    gpuIterations tol p users items Cui Ciu n m

/-- `implicit/gpu/als.py:81-179`, `fit`, from the stored or freshly drawn factors `init`.  There is no
multiplication by `alpha` and no check for NaN. -/
def gpuAlsFit (tol : R) (p : GpuALSParams R) (cols : Nat) (userItems : SpRows R) (init : Factors f R) :
    Except Err (Factors f R) :=
  gpuIterations tol p userItems.length cols userItems (transposeRows cols userItems) p.iterations init

/-- `implicit/gpu/als.py:181-192`, `recalculate_user`: conjugate gradient from zero with as many
steps as factors.  `G` is the cached regularised Gram matrix of the item factors. -/
def gpuRecalculateUser (tol : R) (p : GpuALSParams R) (G : Mat f R) (Y : List (Vec f R)) (users : Nat)
    (cols : Nat) (userItems : SpRows R) : Except Err (List (Vec f R)) :=
  gpuLeastSquares tol f G cols (applyAlpha p.alpha userItems) (List.replicate users fun _ => 0) Y

end Implicit
