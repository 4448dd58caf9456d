import Verif.Model.NearestNeighbours
import Verif.Model.Parallel
/-!
# The parallel loop of `all_pairs_knn` as instruction streams

Shared memory: the output arrays, one cell `(rows[a], cols[a], values[a])` per slot `a`, whose three
parts are stored by separate instructions.  Thread-private: the accumulator and the heap
(`implicit/_nearest_neighbours.pyx:139-140`).
-/

namespace Implicit

variable {R : Type} [LinearOrder R] [Field R]

/-- `neighbours` and `topk.results`. -/
structure KnnScratch (R : Type) where
  acc : Accum R
  results : List (R × Nat)

inductive KnnInstr (R : Type) where
  /-- `neighbours.add(...)` (`:148`) -/
  | add (j : Nat) (v : R)
  /-- `topk.results.clear()`, `neighbours.foreach(...)` (`:150-151`) -/
  | collect
  /-- `rows[index2] = i` (`:156`) for result number `p` -/
  | storeRow (i p : Nat)
  /-- `cols[index2] = result.second` (`:157`) -/
  | storeCol (i p : Nat)
  /-- `values[index2] = result.first` (`:158`) -/
  | storeVal (i p : Nat)

/-- Change cell `a` of the shared memory; nothing happens at an undefined address (C24). -/
def storeAt (m : Nat → KnnCell R) (a : Except Err Nat) (f : KnnCell R → KnnCell R) :
    Nat → KnnCell R :=
  match a with
  | .error _ => m
  | .ok a => Function.update m a (f (m a))

/-- Effect of the instructions; undefined behaviour is shown as no effect (excluded by C22, C24). -/
def knnAct (H : HeapImpl (R × Nat) pairLt) (n K : Nat) :
    Act (KnnInstr R) (KnnScratch R) Nat (KnnCell R)
  | .add j v, s, m =>
    (match s.acc.add j v with
      | .ok a => { s with acc := a }
      | .error _ => s, m)
  | .collect, s, m =>
    (match s.acc.foreach with
      | .error _ => s
      | .ok r =>
        match offerAll H K [] (r.1.map Prod.swap) with
        | .error _ => { s with acc := r.2 }
        | .ok h => ⟨r.2, h⟩, m)
  | .storeRow i p, s, m =>
    (s, match s.results[p]? with
      | none => m
      | some _ => storeAt m (knnSlot n K i p) fun c => (i, c.2.1, c.2.2))
  | .storeCol i p, s, m =>
    (s, match s.results[p]? with
      | none => m
      | some x => storeAt m (knnSlot n K i p) fun c => (c.1, x.2, c.2.2))
  | .storeVal i p, s, m =>
    (s, match s.results[p]? with
      | none => m
      | some x => storeAt m (knnSlot n K i p) fun c => (c.1, c.2.1, x.1))

/-- The stores of result number `p` of item `i` (guarded by the number of results). -/
def knnStoreProg (i p : Nat) : List (KnnInstr R) := [.storeRow i p, .storeCol i p, .storeVal i p]

/-- The iteration for item `i` (`implicit/_nearest_neighbours.pyx:142-159`). -/
def knnProg (n K : Nat) (M : SpRows R) (i : Nat) : List (KnnInstr R) :=
  match (transposeRows n M)[i]? with
  | none => []
  | some row =>
    (match productAdds M row with
      | .error _ => []
      | .ok adds => adds.map fun e => .add e.1 e.2) ++
    [.collect] ++ (List.range K).flatMap (knnStoreProg i)

end Implicit
