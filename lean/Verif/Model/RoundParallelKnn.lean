import Verif.Model.ParallelKnn
import Verif.Model.RoundKnn
/-!
# The parallel loop of `all_pairs_knn` in floating point

The instructions of `Verif.Model.ParallelKnn`; `neighbours.add` rounds its sum and its argument is a rounded product.
-/

namespace Implicit

variable {R : Type} [LinearOrder R] [Field R]

/-- Effect of the instructions (`implicit/_nearest_neighbours.pyx:142-159`); only `add` computes. -/
def roundKnnAct (H : HeapImpl (R × Nat) pairLt) (r : Rounding R) (n K : Nat) : Act (KnnInstr R) (KnnScratch R) Nat (KnnCell R)
  | .add j v, s, m =>
    (match @Accum.add R r.toAdd s.acc j v with
      | .ok a => { s with acc := a }
      | .error _ => s, m)
  | ins, s, m => knnAct H n K ins s m

/-- The iteration for item `i` (`implicit/_nearest_neighbours.pyx:142-159`). -/
def roundKnnProg (r : Rounding R) (n K : Nat) (M : SpRows R) (i : Nat) : List (KnnInstr R) :=
  match (transposeRows n M)[i]? with
  | none => []
  | some row =>
    (match roundProducts r M row with
      | .error _ => []
      | .ok adds => adds.map fun e => .add e.1 e.2) ++
    [.collect] ++ (List.range K).flatMap (knnStoreProg i)

end Implicit
