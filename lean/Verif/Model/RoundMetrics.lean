import Verif.Model.Metrics
import Verif.Model.Rounding
/-!
# Ranking metrics in floating point (`implicit/evaluation.pyx:366-475`)

The code of `Verif.Model.Metrics` once more, with a rounding after every operation: all accumulators are C `double`s and the loop is
sequential.  Integers (`K`, `likes.size()`, `items`, `i + 1`) are converted without error.
-/

namespace Implicit

variable {R : Type} [LinearOrder R] [Field R]

/-- `cg_sum[n - 1]` with `cg_sum = np.cumsum(cg)` (`implicit/evaluation.pyx:409`): the first entry is copied, the others are added one
after the other. -/
def roundCgSum (r : Rounding R) (cg : Nat → R) : Nat → R
  | 0 => 0
  | 1 => cg 0
  | n + 2 => r.rnd (roundCgSum r cg (n + 1) + cg (n + 1))

/-- The body of `for i in range(K)` (`implicit/evaluation.pyx:453-461`); `id` is `ids[batch_idx, i]`. -/
def roundMetricsStep (r : Rounding R) (likes : List Nat) (cg : Nat → R) (idcg : R) (s : MetricSums R × UserSums R)
    (p : Int × Nat) : MetricSums R × UserSums R :=
  if likes.any fun c => (c : Int) == p.1 then
    let hit := r.rnd (s.2.hit + 1)
    ({ s.1 with relevant := r.rnd (s.1.relevant + 1), ndcg := r.rnd (s.1.ndcg + r.rnd (cg p.2 / idcg)) },
     { s.2 with hit := hit, ap := r.rnd (s.2.ap + r.rnd (hit / ((p.2 : R) + 1))) })
  else (s.1, { s.2 with miss := r.rnd (s.2.miss + 1), auc := r.rnd (s.2.auc + s.2.hit) })

/-- One user of a batch (`implicit/evaluation.pyx:438-465`).  `idcg` is not checked for zero: `cg[0]` is 1. -/
def roundMetricsUser (r : Rounding R) (K items : Nat) (cg : Nat → R) (row : List (Nat × R)) (ids : List Int)
    (s : MetricSums R) : Except Err (MetricSums R) :=
  let likes := (row.map Prod.fst).dedup
  let best := min K likes.length
  if best = 0 then .error .undefinedBehaviour
  else if ids.length < K then .error .undefinedBehaviour
  else
    let s := { s with prDiv := r.rnd (s.prDiv + (best : R)) }
    let numPos : R := (likes.length : R)
    let numNeg : R := r.rnd ((items : R) - numPos)
    let (s, u) := (ids.take K).zipIdx.foldl (roundMetricsStep r likes cg (roundCgSum r cg best)) (s, ⟨0, 0, 0, 0⟩)
    let auc := r.rnd (u.auc + r.rnd (r.rnd (r.rnd (u.hit + numPos) / 2) * r.rnd (numNeg - u.miss)))
    if r.rnd (numPos * numNeg) = 0 then .error .zeroDivision
    else .ok { s with
      meanAp := r.rnd (s.meanAp + r.rnd (u.ap / (best : R)))
      meanAuc := r.rnd (s.meanAuc + r.rnd (auc / r.rnd (numPos * numNeg)))
      total := r.rnd (s.total + 1) }

/-- The users of one batch in order (`implicit/evaluation.pyx:437-465`). -/
def roundMetricsBatch (r : Rounding R) (K items : Nat) (cg : Nat → R) (test : SpRows R) :
    List Nat → List (List Int) → MetricSums R → Except Err (MetricSums R)
  | [], _, s => .ok s
  | _ :: _, [], _ => .error .undefinedBehaviour
  | u :: us, row :: rows, s => do
    let s ← roundMetricsUser r K items cg (test.getD u []) row s
    roundMetricsBatch r K items cg test us rows s

/-- `while start_idx < len(to_generate)` (`implicit/evaluation.pyx:432-467`). -/
def roundMetricsLoop (r : Rounding R) (recommend : List Nat → Except Err (List (List Int))) (batchSize K items : Nat)
    (cg : Nat → R) (test : SpRows R) :
    Nat → List Nat → MetricSums R → Except Err (MetricSums R)
  | _, [], s => .ok s
  | 0, _ :: _, _ => .error .runtimeError
  | fuel + 1, u :: us, s => do
    let batch := (u :: us).take batchSize
    let ids ← recommend batch
    let s ← roundMetricsBatch r K items cg test batch ids s
    roundMetricsLoop r recommend batchSize K items cg test fuel ((u :: us).drop batchSize) s

/-- `ranking_metrics_at_k` (`implicit/evaluation.pyx:366-475`). -/
def roundRankingMetrics (r : Rounding R) (recommend : List Nat → Except Err (List (List Int))) (batchSize K items : Nat)
    (cg : Nat → R) (test : SpRows R) : Except Err (Metrics R) := do
  let users := testUsers test
  let s ← roundMetricsLoop r recommend batchSize K items cg test users.length users ⟨0, 0, 0, 0, 0, 0⟩
  if s.prDiv = 0 then throw Err.zeroDivision
  if s.total = 0 then throw Err.zeroDivision
  pure ⟨r.rnd (s.relevant / s.prDiv), r.rnd (s.meanAp / s.total), r.rnd (s.ndcg / s.total), r.rnd (s.meanAuc / s.total)⟩

end Implicit
