import Verif.Model.Vec
import Verif.Model.Memory

/-!
# Model: top-k queries on the GPU (`implicit/gpu/knn.cu:131-264`)

Device buffers are lists of cells of 4 bytes; a store outside a buffer is undefined behaviour.  The output
buffers are one buffer of pairs `(score, id)`, uninitialised (`garbage`).  The matrix product (cuBLAS) is exact.
`select_k` (RAFT) is a parameter `sel`.  The parallel `thrust::for_each` loops store values that depend on the
address only, so the order of their iterations does not matter; they are run in order.  The addresses of the
filters are computed with `int`s in the code; the buffers hold at most `2^30` cells, so nothing overflows.
-/

namespace Implicit

variable {R : Type} [Field R] {f : Nat}

/-- knn.cu:140-181: the batch size.  `maxMem` is the size of the memory pool, sizes are unsigned 64 bit
numbers; `itemsize` is `sizeof(T)`, 4 or 2.  An allocation beyond the pool raises (`rmm::out_of_memory`,
translated by Cython to `RuntimeError`/`MemoryError`).  Simplification: allocations are not rounded up to 256
bytes. -/
def gpuBatchSize (maxMem itemsize rows items k : Nat) : Except Err Nat :=
  if items = 0 then .error .undefinedBehaviour
  else if maxMem < 2 * (rows * k * 4) then .error .runtimeError
  else
    let available := ((min maxMem (2 ^ 32) : Nat) : Int) - rows * k * 4 - rows * k * 4 - rows * k * 8 * 3
    let available := (available % 2 ^ 64).toNat
    let batch := max (min (available / (4 * items)) rows) 1
    if maxMem < 2 * (rows * k * 4) + batch * items * itemsize then .error .runtimeError
    else .ok batch

/-- Arguments of a query. `itemFilter`: ids removed for all rows, `queryFilter`: pairs `(row, id)`. -/
structure GpuQuery (f : Nat) (R : Type) where
  items : List (Vec f R)
  query : List (Vec f R)
  norms : Option (List R)
  itemFilter : Option (List Nat)
  queryFilter : Option (List (Nat × Nat))

/-- knn.cu:190-191: the stores of the matrix product of one batch: `temp[r * cols + c]`. -/
def gpuGemm (q : GpuQuery f R) (start stop : Nat) : List (Nat × R) :=
  (List.range (stop - start)).flatMap fun r =>
    (List.range q.items.length).map fun c =>
      (r * q.items.length + c, dot (q.items.getD c fun _ => 0) (q.query.getD (start + r) fun _ => 0))

/-- knn.cu:195-211: `data[i] /= norms[i % cols]`. -/
def gpuNormalise (q : GpuQuery f R) (start stop : Nat) (temp : List R) : List R :=
  match q.norms with
  | none => temp
  | some n => temp.mapIdx fun i v =>
      if i < (stop - start) * q.items.length then v / n.getD (i % q.items.length) 0 else v

/-- knn.cu:213-229 -/
def gpuItemFilter (low : R) (q : GpuQuery f R) (start stop : Nat) : List (Nat × R) :=
  match q.itemFilter with
  | none => []
  | some ids => (List.range (ids.length * (stop - start))).map fun i =>
      ((i / ids.length) * q.items.length + ids.getD (i % ids.length) 0, low)

/-- knn.cu:231-245 -/
def gpuQueryFilter (low : R) (q : GpuQuery f R) (start stop : Nat) : List (Nat × R) :=
  match q.queryFilter with
  | none => []
  | some l => (l.filter fun e => decide (start ≤ e.1 ∧ e.1 < stop)).map fun e =>
      ((e.1 - start) * q.items.length + e.2, low)

/-- knn.cu:247-258: `select_k` on every row, results stored from `start * k` with row stride `current_k`. -/
def gpuSelect (sel : List R → Nat → List (R × Nat)) (q : GpuQuery f R) (k start stop : Nat) (temp : List R) :
    List (Nat × (R × Nat)) :=
  let currentK := min k q.items.length
  (List.range (stop - start)).flatMap fun r =>
    (sel ((temp.drop (r * q.items.length)).take q.items.length) currentK).mapIdx fun j v =>
      (start * k + r * currentK + j, v)

/-- knn.cu:183-260: one batch. -/
def gpuBatch (sel : List R → Nat → List (R × Nat)) (low : R) (q : GpuQuery f R) (k start stop : Nat)
    (st : List R × List (R × Nat)) : Except Err (List R × List (R × Nat)) := do
  let temp ← writeAll st.1 (gpuGemm q start stop)
  let temp := gpuNormalise q start stop temp
  let temp ← writeAll temp (gpuItemFilter low q start stop)
  let temp ← writeAll temp (gpuQueryFilter low q start stop)
  let out ← writeAll st.2 (gpuSelect sel q k start stop temp)
  .ok (temp, out)

/-- knn.cu:183: `for (int start = 0; start < query.rows; start += batch_size)`, `batch_size = b + 1`. -/
def gpuLoop (sel : List R → Nat → List (R × Nat)) (low : R) (q : GpuQuery f R) (k b start : Nat)
    (st : List R × List (R × Nat)) : Except Err (List R × List (R × Nat)) :=
  if start < q.query.length then do
    let st ← gpuBatch sel low q k start (min q.query.length (start + (b + 1))) st
    gpuLoop sel low q k b (start + (b + 1)) st
  else .ok st
termination_by q.query.length - start

/-- `topk_impl`: knn.cu:131-264.  The temporary buffer has `batch * items` elements of `itemsize` bytes but is
used as a matrix of 4 byte floats. -/
def gpuTopk (sel : List R → Nat → List (R × Nat)) (low : R) (maxMem itemsize : Nat)
    (garbage : Nat → R × Nat) (garbageTemp : Nat → R) (q : GpuQuery f R) (k : Nat) :
    Except Err (List (List (R × Nat))) := do
  let batch ← gpuBatchSize maxMem itemsize q.query.length q.items.length k
  let temp := (List.range (batch * q.items.length * itemsize / 4)).map garbageTemp
  let out := (List.range (q.query.length * k)).map garbage
  let (_, out) ← gpuLoop sel low q k (batch - 1) 0 (temp, out)
  .ok ((List.range q.query.length).map fun r => (out.drop (r * k)).take k)

end Implicit
