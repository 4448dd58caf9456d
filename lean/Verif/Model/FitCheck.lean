import Verif.Model.ALS
/-!
# The NaN check at the end of training

The entries of the factor matrices are values of an arbitrary type `V` with a predicate `isNaN`
(`np.isnan`); an epoch is an arbitrary function on factor matrices.
-/

namespace Implicit

variable {V : Type} {f : Nat}

/-- `np.any(np.isnan(factors), axis=None)`. -/
def anyNaN (isNaN : V → Bool) (X : List (Vec f V)) : Bool :=
  X.any fun x => (List.finRange f).any fun j => isNaN (x j)

/-- `implicit/cpu/matrix_factorization_base.py:248-252`, `_check_fit_errors`. -/
def checkFitErrors (isNaN : V → Bool) (m : Factors f V) : Except Err Unit :=
  let nan := anyNaN isNaN m.user
  let nan := nan || anyNaN isNaN m.item
  if nan then .error .modelFitError else .ok ()

/-- The epochs of a `fit`, numbered from `i`. -/
def trainEpochs (train : Nat → Factors f V → Except Err (Factors f V)) :
    Nat → Nat → Factors f V → Except Err (Factors f V)
  | _, 0, m => .ok m
  | i, n + 1, m => do
    let m ← train i m
    trainEpochs train (i + 1) n m

/-- `fit` of the CPU models: the epochs, then the check (`implicit/cpu/als.py:161-201`,
`implicit/cpu/bpr.pyx:190-207`, `implicit/cpu/lmf.pyx:178-199`). -/
def cpuFit (isNaN : V → Bool) (train : Nat → Factors f V → Except Err (Factors f V)) (epochs : Nat)
    (init : Factors f V) : Except Err (Factors f V) := do
  let m ← trainEpochs train 0 epochs init
  checkFitErrors isNaN m
  pure m

/-- `fit` of the GPU models: no check (`implicit/gpu/als.py:148-179`, `implicit/gpu/bpr.py:126-158`). -/
def gpuFit (train : Nat → Factors f V → Except Err (Factors f V)) (epochs : Nat)
    (init : Factors f V) : Except Err (Factors f V) :=
  trainEpochs train 0 epochs init

end Implicit
