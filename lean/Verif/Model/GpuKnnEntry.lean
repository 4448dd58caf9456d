import Verif.Model.GpuKnn
/-!
# Model: `KnnQuery` on device memory (`implicit/gpu/knn.cu:28-130`, `183-260`)

What the model of `topk_impl` (`GpuKnn.lean`) leaves abstract: the size of the memory pool, the checks of the arguments,
the score of a filtered item, and the matrix product as the cuBLAS call on flat, row by row stored matrices.
-/

namespace Implicit

/-! ## The pool (`knn.cu:55-75`) -/

/-- `KnnQuery::KnnQuery` (knn.cu:55-75): the size of the pool; sizes are unsigned 64 bit numbers.  `free` is what
`cudaMemGetInfo` reports as free. -/
def knnPool (free temp : Nat) : Nat :=
  let temp := if temp = 0 then min (free / 2) 4294967296 else temp
  let padding := temp % 256
  if padding = 0 then temp else (temp + (256 - padding)) % 2 ^ 64

/-- The pool hands out blocks of 256 bytes (`rmm::mr::pool_memory_resource`). -/
def poolBlocks (bytes : Nat) : Nat := (bytes + 255) / 256 * 256

/-- What `topk_impl` takes from the pool with these blocks: scores and ids of the results (knn.cu:147-168) and the scores of
a batch (knn.cu:180). -/
def poolUsed (itemsize rows items k batch : Nat) : Nat :=
  poolBlocks (rows * k * 4) + poolBlocks (rows * k * 4) + poolBlocks (batch * items * itemsize)

/-! ## The score of a filtered item (`knn.cu:28-36`) -/

/-- The `float` with the given bits, for positive finite floats (`bits < 0x7f800000`): 8 bits of exponent, 23 bits of
mantissa. -/
def floatOfBits (bits : Nat) : Rat :=
  let exponent : Nat := bits / 2 ^ 23
  let mantissa : Nat := bits % 2 ^ 23
  if exponent = 0 then mantissa * 2 ^ (-149 : Int)
  else (2 ^ 23 + mantissa) * 2 ^ ((exponent : Int) - 150)

/-- `FLT_MAX` has the bits `0x7f7fffff`. -/
def fltMaxBits : Nat := 0x7f7fffff

/-- `FLT_FILTER_DISTANCE` (knn.cu:31-36): the bits of `FLT_MAX` less one, read as a float, negated. -/
def fltFilterDistance : Rat := -floatOfBits (fltMaxBits - 1)

variable {R : Type} [Field R]

/-! ## The product (`knn.cu:100-129`) -/

/-- `cublasSgemm(handle, CUBLAS_OP_T, CUBLAS_OP_N, m, n, k, 1, A, lda, B, ldb, 0, C, ldc)`: matrices are column-major,
`C[i + j * ldc] = sum over l of A[l + i * lda] * B[l + j * ldb]` for `i < m`, `j < n`; the rest of `C` is kept.  Leading
dimensions that are too small are an error status, which `CHECK_CUBLAS` throws; memory outside the buffers is undefined
behaviour. -/
def gemmTN (m n k : Nat) (A : List R) (lda : Nat) (B : List R) (ldb : Nat) (C : List R) (ldc : Nat) :
    Except Err (List R) :=
  if lda < max 1 k ∨ ldb < max 1 k ∨ ldc < max 1 m then .error .runtimeError
  else if m = 0 ∨ n = 0 then .ok C
  else if A.length < (m - 1) * lda + k ∨ B.length < (n - 1) * ldb + k ∨ C.length < (n - 1) * ldc + m then
    .error .undefinedBehaviour
  else .ok (C.mapIdx fun a old =>
    if a % ldc < m ∧ a / ldc < n then
      ((List.range k).map fun l => A.getD (l + a % ldc * lda) 0 * B.getD (l + a / ldc * ldb) 0).sum
    else old)

/-- A matrix on the device (`implicit/gpu/matrix.h`): sizes, bytes per element and the elements from `data` on. -/
structure KnnMatrix (R : Type) where
  rows : Nat
  cols : Nat
  itemsize : Nat
  data : List R

/-- What the steps after the product look at: numbers of rows, norms and filters. -/
def devSizes (items query : KnnMatrix R) (norms : Option (List R)) (itemFilter : Option (List Nat))
    (queryFilter : Option (List (Nat × Nat))) : GpuQuery 0 R :=
  ⟨List.replicate items.rows fun _ => 0, List.replicate query.rows fun _ => 0, norms, itemFilter, queryFilter⟩

/-- knn.cu:183-260: one batch.  `gemm<T>` (knn.cu:106-129) multiplies `items` and the rows of `Matrix batch(query, start,
end)`, which starts `start * cols` elements into the query; `output->cols` is the number of items. -/
def devBatch (sel : List R → Nat → List (R × Nat)) (low : R) (items query : KnnMatrix R) (q : GpuQuery 0 R)
    (k start stop : Nat) (st : List R × List (R × Nat)) : Except Err (List R × List (R × Nat)) := do
  let temp ← gemmTN items.rows (stop - start) items.cols items.data items.cols
    (query.data.drop (start * query.cols)) query.cols st.1 items.rows
  let temp := gpuNormalise q start stop temp
  let temp ← writeAll temp (gpuItemFilter low q start stop)
  let temp ← writeAll temp (gpuQueryFilter low q start stop)
  let out ← writeAll st.2 (gpuSelect sel q k start stop temp)
  .ok (temp, out)

/-- knn.cu:183, `batch_size = b + 1`. -/
def devLoop (sel : List R → Nat → List (R × Nat)) (low : R) (items query : KnnMatrix R) (q : GpuQuery 0 R)
    (k b start : Nat) (st : List R × List (R × Nat)) : Except Err (List R × List (R × Nat)) :=
  if start < query.rows then do
    let st ← devBatch sel low items query q k start (min query.rows (start + (b + 1))) st
    devLoop sel low items query q k b (start + (b + 1)) st
  else .ok st
termination_by query.rows - start

/-- `topk_impl` (knn.cu:131-264) on device memory. -/
def knnTopkImpl (sel : List R → Nat → List (R × Nat)) (low : R) (maxMem : Nat)
    (garbage : Nat → R × Nat) (garbageTemp : Nat → R) (items query : KnnMatrix R) (norms : Option (List R))
    (itemFilter : Option (List Nat)) (queryFilter : Option (List (Nat × Nat))) (k : Nat) :
    Except Err (List (List (R × Nat))) := do
  let batch ← gpuBatchSize maxMem items.itemsize query.rows items.rows k
  let temp := (List.range (batch * items.rows * items.itemsize / 4)).map garbageTemp
  let out := (List.range (query.rows * k)).map garbage
  let (_, out) ← devLoop sel low items query (devSizes items query norms itemFilter queryFilter) k (batch - 1) 0
    (temp, out)
  .ok ((List.range query.rows).map fun r => (out.drop (r * k)).take k)

/-- `KnnQuery::topk` (knn.cu:77-98); `std::invalid_argument` becomes `ValueError`. -/
def knnTopk (sel : List R → Nat → List (R × Nat)) (low : R) (maxMem : Nat)
    (garbage : Nat → R × Nat) (garbageTemp : Nat → R) (items query : KnnMatrix R) (norms : Option (List R))
    (itemFilter : Option (List Nat)) (queryFilter : Option (List (Nat × Nat))) (k : Nat) :
    Except Err (List (List (R × Nat))) :=
  if query.cols ≠ items.cols then .error .valueError
  else if query.itemsize ≠ items.itemsize then .error .valueError
  else if items.itemsize = 4 ∨ items.itemsize = 2 then
    knnTopkImpl sel low maxMem garbage garbageTemp items query norms itemFilter queryFilter k
  else .error .valueError

end Implicit
