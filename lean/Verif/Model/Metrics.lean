import Verif.Model.MFBase
/-!
# Ranking metrics (`implicit/evaluation.pyx:235-475`)

`cg i` stands for `1 / log2 (i + 2)` (line 408).
-/

namespace Implicit

variable {R : Type} [LinearOrder R] [Field R]

/-- The accumulators of the whole call (`implicit/evaluation.pyx:403-412`). -/
structure MetricSums (R : Type) where
  relevant : R
  prDiv : R
  total : R
  meanAp : R
  ndcg : R
  meanAuc : R

/-- The accumulators of one user (`implicit/evaluation.pyx:445-448`). -/
structure UserSums (R : Type) where
  hit : R
  miss : R
  ap : R
  auc : R

/-- What the call returns (`implicit/evaluation.pyx:470-475`). -/
structure Metrics (R : Type) where
  precision : R
  map : R
  ndcg : R
  auc : R
deriving DecidableEq

/-- `cg_sum[n - 1]` with `cg_sum = np.cumsum(cg)` (`implicit/evaluation.pyx:409`). -/
def cgSum (cg : Nat → R) : Nat → R
  | 0 => 0
  | n + 1 => cgSum cg n + cg n

/-- The body of `for i in range(K)` (`implicit/evaluation.pyx:453-461`); `id` is `ids[batch_idx, i]`. -/
def metricsStep (likes : List Nat) (cg : Nat → R) (idcg : R) (s : MetricSums R × UserSums R)
    (p : Int × Nat) : MetricSums R × UserSums R :=
  if likes.any fun c => (c : Int) == p.1 then
    ({ s.1 with relevant := s.1.relevant + 1, ndcg := s.1.ndcg + cg p.2 / idcg },
     { s.2 with hit := s.2.hit + 1, ap := s.2.ap + (s.2.hit + 1) / ((p.2 : R) + 1) })
  else (s.1, { s.2 with miss := s.2.miss + 1, auc := s.2.auc + s.2.hit })

/-- One user of a batch (`implicit/evaluation.pyx:438-465`); `row` is the user's row of
`test_user_items`, `ids` the user's row of the recommendations, `items` the number of columns of
`test_user_items`.  Reading `cg_sum[-1]` (for `K = 0`) or beyond the columns of `ids` is undefined
behaviour (`boundscheck(False)`); dividing by zero raises. -/
def metricsUser (K items : Nat) (cg : Nat → R) (row : List (Nat × R)) (ids : List Int)
    (s : MetricSums R) : Except Err (MetricSums R) :=
  let likes := (row.map Prod.fst).dedup
  let best := min K likes.length
  if best = 0 then .error .undefinedBehaviour
  else if ids.length < K then .error .undefinedBehaviour
  else
    let s := { s with prDiv := s.prDiv + (best : R) }
    let numPos : R := (likes.length : R)
    let numNeg : R := (items : R) - numPos
    let (s, u) := (ids.take K).zipIdx.foldl (metricsStep likes cg (cgSum cg best)) (s, ⟨0, 0, 0, 0⟩)
    let auc := u.auc + ((u.hit + numPos) / 2) * (numNeg - u.miss)
    if numPos * numNeg = 0 then .error .zeroDivision
    else .ok { s with
      meanAp := s.meanAp + u.ap / (best : R)
      meanAuc := s.meanAuc + auc / (numPos * numNeg)
      total := s.total + 1 }

/-- The users of one batch in order; a missing row of recommendations is read out of bounds. -/
def metricsBatch (K items : Nat) (cg : Nat → R) (test : SpRows R) :
    List Nat → List (List Int) → MetricSums R → Except Err (MetricSums R)
  | [], _, s => .ok s
  | _ :: _, [], _ => .error .undefinedBehaviour
  | u :: us, row :: rows, s => do
    let s ← metricsUser K items cg (test.getD u []) row s
    metricsBatch K items cg test us rows s

/-- `while start_idx < len(to_generate)` (`implicit/evaluation.pyx:432-467`); `recommend` is
`model.recommend(batch, train_user_items[batch], N=K)`, the ids only.  `fuel` bounds the number of
batches. -/
def metricsLoop (recommend : List Nat → Except Err (List (List Int))) (batchSize K items : Nat)
    (cg : Nat → R) (test : SpRows R) :
    Nat → List Nat → MetricSums R → Except Err (MetricSums R)
  | _, [], s => .ok s
  | 0, _ :: _, _ => .error .runtimeError
  | fuel + 1, u :: us, s => do
    let batch := (u :: us).take batchSize
    let ids ← recommend batch
    let s ← metricsBatch K items cg test batch ids s
    metricsLoop recommend batchSize K items cg test fuel ((u :: us).drop batchSize) s

/-- `to_generate` (`implicit/evaluation.pyx:427-428`): users with at least one entry in test. -/
def testUsers (test : SpRows R) : List Nat :=
  (List.range test.length).filter fun u => decide (0 < (test.getD u []).length)

/-- `ranking_metrics_at_k` (`implicit/evaluation.pyx:366-475`). -/
def rankingMetrics (recommend : List Nat → Except Err (List (List Int))) (batchSize K items : Nat)
    (cg : Nat → R) (test : SpRows R) : Except Err (Metrics R) := do
  let users := testUsers test
  let s ← metricsLoop recommend batchSize K items cg test users.length users ⟨0, 0, 0, 0, 0, 0⟩
  if s.prDiv = 0 then throw Err.zeroDivision
  if s.total = 0 then throw Err.zeroDivision
  pure ⟨s.relevant / s.prDiv, s.meanAp / s.total, s.ndcg / s.total, s.meanAuc / s.total⟩

/-- `batch_size` (`implicit/evaluation.pyx:423`). -/
def metricsBatchSize : Nat := 1000

end Implicit
