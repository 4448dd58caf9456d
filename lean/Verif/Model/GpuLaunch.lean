import Verif.Model.GpuALS
import Verif.Model.GpuDot
/-!
# Kernel launches and the errors that are noticed

Every kernel of the GPU code is started with one thread per factor, `kernel<<<blocks, factors, bytes>>>(...)`, and followed by
`CHECK_CUDA(cudaDeviceSynchronize())`.  A launch that the device cannot satisfy (too many threads, too much shared memory)
executes nothing and records an error, which `cudaGetLastError` would return; `cudaDeviceSynchronize` reports errors of kernels
that ran, not this one (CUDA programming guide, "Error checking").  The number of blocks is `256 * multiprocessors` or 1024 and
always allowed.
-/

namespace Implicit

/-- The kernels of the repository. -/
inductive GpuKernel where
  | l2Regularize
  | leastSquares
  | loss
  | bpr
  | norms
deriving DecidableEq

/-- What a device allows: threads per block for each compiled kernel (1024 by the hardware, fewer if the kernel needs many
registers), bytes of dynamic shared memory (49152), and whether cuBLAS fails when it finds an error recorded earlier. -/
structure GpuLimits where
  threads : GpuKernel → Nat
  shared : Nat
  blasSeesError : Bool

/-- Can the device satisfy the launch? -/
def GpuLimits.accepts (L : GpuLimits) (k : GpuKernel) (threads shared : Nat) : Bool :=
  decide (1 ≤ threads ∧ threads ≤ L.threads k ∧ shared ≤ L.shared)

variable {R : Type} [LinearOrder R] [Field R] {f : Nat}

/-- A launch followed by `CHECK_CUDA(cudaDeviceSynchronize())`; `pending` is the recorded error. -/
def gpuLaunch {α : Type} (L : GpuLimits) (k : GpuKernel) (threads shared : Nat) (work : α → Except Err α) (a : α)
    (pending : Bool) : Except Err (α × Bool) :=
  if L.accepts k threads shared then do
    let b ← work a
    pure (b, pending)
  else .ok (a, true)

/-- `calculate_yty` (`implicit/gpu/als.cu:122-152`).  cuBLAS rejects matrices with a leading dimension of 0. -/
def launchYtY (L : GpuLimits) (reg : R) (Y : List (Vec f R)) (pending : Bool) : Except Err (Mat f R × Bool) :=
  if f = 0 then .error .runtimeError
  else if pending ∧ L.blasSeesError then .error .runtimeError
  else gpuLaunch L .l2Regularize f 0 (fun G => .ok (regularised G reg)) (gram Y) pending

/-- `least_squares` (`implicit/gpu/als.cu:154-200`): dimensions, item size, launch.  `sizeof(Y.itemsize)` is 8, the size of a
`size_t`. -/
def launchLeastSquares (L : GpuLimits) (itemsize : Nat) (tol : R) (steps : Nat) (G : Mat f R) (cols : Nat) (C : SpRows R)
    (X Y : List (Vec f R)) (pending : Bool) : Except Err (List (Vec f R) × Bool) :=
  if X.length < C.length then .error .valueError
  else if Y.length < cols then .error .valueError
  else if itemsize = 4 ∨ itemsize = 2 then
    gpuLaunch L .leastSquares f (8 * (2 * f)) (fun X => gpuLeastSquares tol steps G cols C X Y) X pending
  else .error .valueError

/-- One iteration of `fit` (`implicit/gpu/als.py:157-162`). -/
def launchIteration (L : GpuLimits) (tol : R) (p : GpuALSParams R) (users items : Nat) (Cui Ciu : SpRows R)
    (s : Factors f R × Bool) : Except Err (Factors f R × Bool) := do
  let g ← launchYtY L p.regularization s.1.item s.2
  let x ← launchLeastSquares L 4 tol p.cgSteps g.1 items Cui s.1.user s.1.item g.2
  let h ← launchYtY L p.regularization x.1 x.2
  let y ← launchLeastSquares L 4 tol p.cgSteps h.1 users Ciu s.1.item x.1 h.2
  pure (⟨x.1, y.1⟩, y.2)

def launchIterations (L : GpuLimits) (tol : R) (p : GpuALSParams R) (users items : Nat) (Cui Ciu : SpRows R) :
    Nat → Factors f R × Bool → Except Err (Factors f R × Bool)
  | 0, s => .ok s
  | n + 1, s => do
    let s ← launchIteration L tol p users items Cui Ciu s
    launchIterations L tol p users items Cui Ciu n s

/-- `fit` of the GPU ALS model in single precision (`implicit/gpu/als.py:81-179`), from the stored or drawn factors. -/
def launchFit (L : GpuLimits) (tol : R) (p : GpuALSParams R) (cols : Nat) (userItems : SpRows R) (init : Factors f R) :
    Except Err (Factors f R × Bool) :=
  launchIterations L tol p userItems.length cols userItems (transposeRows cols userItems) p.iterations (init, false)

/-- `recalculate_user` (`implicit/gpu/als.py:181-192`) with the property `YtY` (`implicit/gpu/als.py:283-288`) computed anew. -/
def launchRecalculate (L : GpuLimits) (tol : R) (p : GpuALSParams R) (Y : List (Vec f R)) (users cols : Nat)
    (userItems : SpRows R) (pending : Bool) : Except Err (List (Vec f R) × Bool) := do
  let g ← launchYtY L p.regularization Y pending
  launchLeastSquares L 4 tol f g.1 cols (applyAlpha p.alpha userItems) (List.replicate users fun _ => 0) Y g.2

/-- `calculate_loss` (`implicit/gpu/als.cu:253-281`): the output is zeroed, the kernel adds to it. -/
def launchLoss (L : GpuLimits) (itemsize : Nat) (C : SpRows R) (cols : Nat) (X Y : List (Vec f R)) (reg : R) (pending : Bool) :
    Except Err (R × Bool) := do
  let g ← launchYtY L 0 Y pending
  if itemsize = 4 ∨ itemsize = 2 then
    gpuLaunch L .loss f (itemsize * f) (fun _ => calculateLoss C cols X Y reg)
      (0 / (0 + ((C.length * cols : Nat) : R) - ((C.map List.length).sum : R))) g.2
  else .error .valueError

/-- `calculate_norms` (`implicit/gpu/matrix.cu:190-215`): a zeroed row of norms, then the kernel. -/
def launchNorms (L : GpuLimits) (itemsize : Nat) (norm : Vec f R → R) (X : List (Vec f R)) (pending : Bool) :
    Except Err (List R × Bool) :=
  if itemsize = 4 ∨ itemsize = 2 then
    gpuLaunch L .norms f 0 (fun _ => .ok (X.map norm)) (X.map fun _ => 0) pending
  else .error .runtimeError

/-- `bpr_update` (`implicit/gpu/bpr.cu:69-143`): checks, zeroed counters, then the kernel with one thread per column (one more
than there are factors).  `S` is the state of the two factor matrices, `epoch` the effect of the kernel. -/
def launchBpr {S : Type} (L : GpuLimits) (userCols itemCols userids itemids : Nat) (epoch : S → S × (Nat × Nat)) (s : S)
    (pending : Bool) : Except Err ((S × (Nat × Nat)) × Bool) :=
  if userCols ≠ itemCols then .error .valueError
  else if userids ≠ itemids then .error .valueError
  else gpuLaunch L .bpr userCols (4 * userCols) (fun a => .ok (epoch a.1)) (s, (0, 0)) pending

/-! ## Shared memory -/

/-- The words of `shared` an instruction of `dot` reads or writes in a block of `n` threads (`implicit/gpu/dot.cuh:36-58`). -/
def dotTouches (n : Nat) : Nat × DotInstr → List Nat
  | (w, .store) => [w]
  | (_, .reduce) => (List.range 32).filter fun l => decide (l < activeLanes n 0 ∧ l < numWarps n)
  | (_, .broadcast) => [0]
  | (_, .read) => [0]

/-- Words before the scratch area of `dot`, and the bytes of the allocation: `P` and `shared` are one array in the ALS kernel
(`implicit/gpu/als.cu:28-30,179`), the loss and BPR kernels use it for `dot` only (`implicit/gpu/als.cu:206-207,265-269`,
`implicit/gpu/bpr.cu:23-24,117`), the norms kernel has a static array of 32 floats (`implicit/gpu/matrix.cu:176`). -/
def scratchOf (k : GpuKernel) (itemsize f : Nat) : Nat × Nat :=
  match k with
  | .l2Regularize => (0, 0)
  | .leastSquares => (f, 8 * (2 * f))
  | .loss => (0, itemsize * f)
  | .bpr => (0, 4 * f)
  | .norms => (0, 4 * 32)

end Implicit
