import Verif.Model.GpuDot
import Verif.Model.RoundCgDense
/-!
# The dot product of a thread block in floating point

`implicit/gpu/dot.cuh` with rounded operations, for full warps (the GPU models use multiples of 32 factors) and calls that do not disturb
each other (see C52 for those that do).  The compiler may contract `a * b` and the first addition to one operation; `axpy` leaves this open.
-/

namespace Implicit

variable {f : Nat}

/-- `val += __shfl_down_sync(active, val, off)` in a full warp. -/
noncomputable def roundShfl (A : FloatOps ℝ) (v : Fin 32 → ℝ) (off : Nat) : Fin 32 → ℝ :=
  fun l => A.add (v l) (if h : l.val + off < 32 then v ⟨l.val + off, h⟩ else v l)

/-- `warp_reduce_sum` (`implicit/gpu/dot.cuh:9-25`). -/
noncomputable def roundWarpReduce (A : FloatOps ℝ) (v : Fin 32 → ℝ) : Fin 32 → ℝ := [16, 8, 4, 2, 1].foldl (roundShfl A) v

/-- `val = a * b; val = warp_reduce_sum(val)` (`implicit/gpu/dot.cuh:33-34`), the product of the first round contracted or not. -/
noncomputable def roundWarpDot (A : FloatOps ℝ) (a b : Fin 32 → ℝ) : Fin 32 → ℝ :=
  [8, 4, 2, 1].foldl (roundShfl A) fun l =>
    A.axpy (a l) (b l) (if h : l.val + 16 < 32 then A.mul (a ⟨l.val + 16, h⟩) (b ⟨l.val + 16, h⟩) else A.mul (a l) (b l))

/-- The coordinate of a thread; threads beyond the last do not exist. -/
noncomputable def coordinate (x : Vec f ℝ) (i : Nat) : ℝ := if h : i < f then x ⟨i, h⟩ else 0

/-- What warp `w` stores (`implicit/gpu/dot.cuh:29-39`). -/
noncomputable def roundWarpPart (A : FloatOps ℝ) (x y : Vec f ℝ) (w : Nat) : ℝ :=
  roundWarpDot A (fun l => coordinate x (32 * w + l.val)) (fun l => coordinate y (32 * w + l.val)) 0

/-- `dot` for a block with one thread per coordinate (`implicit/gpu/dot.cuh:27-59`). -/
noncomputable def roundBlockDot (A : FloatOps ℝ) (x y : Vec f ℝ) : ℝ :=
  if f ≤ 32 then roundWarpPart A x y 0
  else roundWarpReduce A (fun l => if l.val < numWarps f then roundWarpPart A x y l.val else A.zero) 0

/-- `LeastSquaresSolver::least_squares` (`implicit/gpu/als.cu:23-111,157-210`), one half of an iteration of `fit`
(`implicit/gpu/als.py:150-154`): every row with the products of a thread block; a row of the factors without a row of the matrix reads
beyond the end of `indptr`. -/
noncomputable def roundGpuLeastSquares (A : FloatOps ℝ) (r : Rounding ℝ) (tol : ℝ) (steps : Nat) (C : SpRows ℝ) (X Y : List (Vec f ℝ))
    (order : Fin f → Fin f → SumTree Y.length) (reg : ℝ) : Except Err (List (CgEnd f)) :=
  X.zipIdx.mapM fun xu =>
    match C[xu.2]? with
    | none => .error .undefinedBehaviour
    | some row => roundGpuRow A (roundBlockDot A) r tol steps Y order reg row xu.1

end Implicit
