import Verif.Model.ALS
import Verif.Model.Evaluation
import Verif.Model.Metrics
/-!
# An evaluation run, as in `tests/evaluation_test.py:114-119`

`train, test = train_test_split(ratings)`; `model.fit(train)`; `ranking_metrics_at_k(model, train, test, K)`.
The random starting factors are a parameter.
-/

namespace Implicit

variable {R : Type} [LinearOrder R] [Field R] {f : Nat}

/-- `ids, _ = model.recommend(batch, train_user_items[batch], N=K)` for a factor model
(`implicit/evaluation.pyx:434`, `implicit/cpu/matrix_factorization_base.py:34-95`). -/
def mfEvaluate (H : HeapImpl (R × Nat) pairLt) (neginf : R) (m : Factors f R)
    (recalc : SpRows R → Except Err (List (Vec f R))) (train : SpRows R) (K : Nat) (us : List Nat) :
    Except Err (List (List Int)) := do
  let rows ← gather train us
  match ← recommend H neginf m recalc (.many us) (some rows) K true none false none with
  | .one row => pure [row.map fun p => (p.1 : Int)]
  | .many out => pure (out.map fun row => row.map fun p => (p.1 : Int))

/-- `model.fit(train)` for CPU ALS, then `ranking_metrics_at_k(model, train, test, K)`
(`implicit/cpu/als.py:97-201`, `implicit/evaluation.pyx:366-475`). -/
def trainAndEvaluate (H : HeapImpl (R × Nat) pairLt) (neginf : R) (S : Solver f R) (tol : R) (p : ALSParams R)
    (init : Factors f R) (K : Nat) (cg : Nat → R) (train test : Csr R) : Except Err (Metrics R) := do
  let m ← alsFit S tol p train.ncols train.rows init
  rankingMetrics (mfEvaluate H neginf m noRecalc train.rows K) metricsBatchSize K test.ncols cg test.rows

/-- The whole run with `train_test_split` (`implicit/evaluation.pyx:14-48`). -/
def evaluationRun {Gen : Type} (I : RngImpl R Gen) (P : Process R Gen) (X : Ratings R) (share : R) (rs : RandomState Gen)
    (H : HeapImpl (R × Nat) pairLt) (neginf : R) (S : Solver f R) (tol : R) (p : ALSParams R)
    (init : Factors f R) (K : Nat) (cg : Nat → R) : Except Err (Metrics R) := do
  let (train, test) ← trainTestSplit I P X share rs
  trainAndEvaluate H neginf S tol p init K cg train test

end Implicit
