import Verif.Model.ALSState
import Verif.Model.GpuALS
/-!
# The native loops on the arrays of a CSR matrix

`Verif.Model.ALS` lets the solvers work on a list of rows.  The code gets three arrays instead
(`Cui.indptr`, `Cui.indices`, `Cui.data`) and the number of rows from the factor matrix it fills.  Here the
loops read the arrays; an element that does not exist is undefined behaviour (`boundscheck(False)` in
Cython, no checks in CUDA).

Simplified: the entries of a row are read before the row is solved (the code reads them one at a time,
inside the loop; reading has no effect).
-/

namespace Implicit

variable {R : Type} [LinearOrder R] [Field R] {f : Nat}

/-- The arrays of a `scipy.sparse.csr_matrix`, or of a `CSRMatrix` on the device
(`implicit/gpu/matrix.cu:230-243`). -/
structure SparseArrays (R : Type) where
  rows : Nat
  cols : Nat
  indptr : List Nat
  indices : List Nat
  data : List R

/-- One entry: `indices[index]`, `data[index]` (`implicit/cpu/_als.pyx:110-111`). -/
def csrEntry (M : SparseArrays R) (index : Nat) : Except Err (Nat × R) :=
  match M.indices[index]?, M.data[index]? with
  | some i, some c => .ok (i, c)
  | _, _ => .error .undefinedBehaviour

/-- `for index in range(indptr[u], indptr[u+1])` (`implicit/cpu/_als.pyx:98,109-111,177,189-191,282-284`,
`implicit/gpu/als.cu:44,54-56,76-78,235-237`). -/
def csrReadRow (M : SparseArrays R) (u : Nat) : Except Err (List (Nat × R)) :=
  match M.indptr[u]?, M.indptr[u + 1]? with
  | some a, some b => (List.range' a (b - a)).mapM (csrEntry M)
  | _, _ => .error .undefinedBehaviour

/-- `implicit/cpu/_als.pyx:75-142`, `_least_squares`, on the arrays; `users = X.shape[0]`. -/
def nativeLeastSquares (S : Solver f R) (G : Mat f R) (M : SparseArrays R) (users : Nat)
    (Y : List (Vec f R)) (reg : R) : Except Err (List (Vec f R)) :=
  (List.range users).mapM fun u => do
    let row ← csrReadRow M u
    leastSquaresRow S G Y reg row

/-- `implicit/cpu/_als.pyx:154-248`, `_least_squares_cg`, on the arrays. -/
def nativeCG (tol : R) (steps : Nat) (M : SparseArrays R) (X Y : List (Vec f R)) (reg : R) :
    Except Err (List (Vec f R)) :=
  X.zipIdx.mapM fun xu => do
    let row ← csrReadRow M xu.2
    cgRow (regularised (gram Y) reg) tol steps Y row xu.1

/-- The parallel loop of `_calculate_loss` on the arrays (`implicit/cpu/_als.pyx:277-299`). -/
def nativeLossParts (M : SparseArrays R) (X Y : List (Vec f R)) : Except Err (List (R × R)) :=
  X.zipIdx.mapM fun xu => do
    let row ← csrReadRow M xu.2
    let es ← rowEntries .undefinedBehaviour Y row
    pure (lossRow (gram Y) es xu.1)

/-- A product of two C `int`s; overflow of a signed type is undefined behaviour. -/
def int32Mul (a b : Nat) : Except Err Nat :=
  if a * b < 2 ^ 31 then .ok (a * b) else .error .undefinedBehaviour

/-- One row of `least_squares_cg_kernel` on the arrays (`implicit/gpu/als.cu:38-109`): the addresses of the
factors are the `int` products `u * factors` and `indices[index] * factors`. -/
def gpuNativeRow (tol : R) (steps : Nat) (G : Mat f R) (M : SparseArrays R) (Y : List (Vec f R)) (u : Nat)
    (x : Vec f R) : Except Err (Vec f R) := do
  let _ ← int32Mul u f
  let row ← csrReadRow M u
  let _ ← row.mapM fun e => int32Mul e.1 f
  cgRow G tol steps Y row x

/-- `implicit/gpu/als.cu:151-197`, `least_squares`, on the arrays, with its checks. -/
def gpuNativeLeastSquares (tol : R) (steps : Nat) (G : Mat f R) (M : SparseArrays R)
    (X Y : List (Vec f R)) : Except Err (List (Vec f R)) :=
  if X.length < M.rows then .error .valueError
  else if Y.length < M.cols then .error .valueError
  else X.zipIdx.mapM fun xu => gpuNativeRow tol steps G M Y xu.2 xu.1

/-- The reads of `calculate_loss_kernel` for one user (`implicit/gpu/als.cu:221-249`). -/
def gpuLossReads (M : SparseArrays R) (Y : List (Vec f R)) (u : Nat) :
    Except Err (List (Vec f R × R)) := do
  let _ ← int32Mul u f
  let row ← csrReadRow M u
  let _ ← row.mapM fun e => int32Mul e.1 f
  rowEntries .undefinedBehaviour Y row

/-- The reads of `calculate_loss` (`implicit/gpu/als.cu:259-286`), which has no checks. -/
def gpuLoss (M : SparseArrays R) (X Y : List (Vec f R)) : Except Err (List (List (Vec f R × R))) :=
  (List.range X.length).mapM (gpuLossReads M Y)

/-- The floats of dynamic shared memory a kernel launch provides, for factors of `itemsize` bytes:
`sizeof(Y.itemsize) * (2 * factors)` bytes for `least_squares` (`sizeof(size_t)` is 8), and
`X.itemsize * factors` bytes for `calculate_loss` (`implicit/gpu/als.cu:177,271,275`). -/
def alsSharedFloats (factors : Nat) : Nat := 8 * (2 * factors) / 4

/-- See `alsSharedFloats`. -/
def lossSharedFloats (itemsize factors : Nat) : Nat := itemsize * factors / 4

/-- The highest index of shared memory touched by `dot` on a block of `factors` threads, counted from
`shared` (`implicit/gpu/dot.cuh:29,37-39`): the last warp writes `shared[warp]`. -/
def dotLastShared (factors : Nat) : Nat := (factors - 1) / 32

/-! ## What the python layer passes on -/

/-- The outcome of an operation that reaches a native loop. -/
def kernelOutcome (env : Env f R) (st : MFState f R) : Op f R → Except Err Unit
  | .fit invalidate train callback torn epochs =>
    (fitModel env invalidate train callback torn epochs st).1
  | .partialFitUsers ids rows => (partialFitUsers env st ids rows).1
  | .partialFitItems ids rows => (partialFitItems env st ids rows).1
  | .query (.recalculateUser ids rows) => (recalculateUser env st ids rows).1.map fun _ => ()
  | .query (.recalculateItem ids rows) => (recalculateItem env st ids rows).1.map fun _ => ()
  | .query _ => .ok ()

end Implicit
