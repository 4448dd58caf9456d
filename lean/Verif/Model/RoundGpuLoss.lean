import Verif.Model.GpuKernel
import Verif.Model.RoundGpuDot
import Verif.Model.RoundLoss
/-!
# The training loss of the GPU in floating point

`calculate_loss_kernel` and `LeastSquaresSolver::calculate_loss` (`implicit/gpu/als.cu:198-282`, single precision factors) on real numbers with
rounded operations.  Everything is single precision here, the sums over the rows too.  A negation is exact.  Overflow, underflow and NaN are
not included.
-/

namespace Implicit

variable {f : Nat}

section
variable (A : FloatOps ℝ) (Q : CgProducts f)

/-- `r` after the entries of a row (`implicit/gpu/als.cu:218-234`): the coordinate of thread `a` at `a`. -/
noncomputable def gpuLossVector (es : List (Vec f ℝ × ℝ)) (x : Vec f ℝ) : Vec f ℝ :=
  es.foldl (fun r e =>
      if A.lt A.zero e.2 then A.axpyVec (A.axpy (A.sub e.2 A.one) (Q.dot e.1 x) (A.mul (-2) e.2)) e.1 r
      else A.axpyVec (A.mul (A.sub (-e.2) A.one) (Q.dot e.1 x)) e.1 r)
    (Q.times x)

/-- What a row adds to the sums (`implicit/gpu/als.cu:212-239`). -/
noncomputable def gpuLossRow (es : List (Vec f ℝ × ℝ)) (x : Vec f ℝ) : LossTerms :=
  ⟨es.map fun e => if A.lt A.zero e.2 then e.2 else -e.2, Q.dot x (gpuLossVector A Q es x), Q.dot x x⟩

/-- The loop body for user `u` with factor `x` (`implicit/gpu/als.cu:211-240`). -/
noncomputable def gpuLossPart (C : SpRows ℝ) (Y : List (Vec f ℝ)) (xu : Vec f ℝ × Nat) : Except Err LossTerms :=
  match C[xu.2]? with
  | none => .error .undefinedBehaviour
  | some row => do
    let es ← rowEntries .undefinedBehaviour Y row
    pure (gpuLossRow A Q es xu.1)

/-- The sum of the terms of rows `rows`, from zero (`implicit/gpu/als.cu:209-245`). -/
noncomputable def blockSum (terms : Nat → List ℝ) (rows : List Nat) : ℝ := rows.foldl (fun s i => (terms i).foldl A.add s) A.zero

/-- What block `b` adds to `output[0]` (`implicit/gpu/als.cu:209-250`). -/
noncomputable def gpuLossBlock (grid : Nat) (parts : List LossTerms) (X Y : List (Vec f ℝ)) (reg : ℝ) (b : Nat) : ℝ :=
  A.axpy reg
    (A.add (blockSum A (fun i => (Y[i]?.map fun y => [Q.dot y y]).getD []) (gridStride grid Y.length b))
      (blockSum A (fun i => (parts[i]?.map fun t => [t.norm]).getD []) (gridStride grid X.length b)))
    (blockSum A (fun i => (parts[i]?.map fun t => t.confidences ++ [t.product]).getD []) (gridStride grid X.length b))

/-- What block `b` adds to `output[1]` (`implicit/gpu/als.cu:209-251`). -/
noncomputable def gpuConfidenceBlock (grid : Nat) (parts : List LossTerms) (X : List (Vec f ℝ)) (b : Nat) : ℝ :=
  blockSum A (fun i => (parts[i]?.map LossTerms.confidences).getD []) (gridStride grid X.length b)

/-- The `atomicAdd`s of the blocks, in the orders `first` and `second`, and the result (`implicit/gpu/als.cu:247-281`); the two integers are
converted to single precision. -/
noncomputable def gpuLossSums (r : Rounding ℝ) (grid : Nat) (first second : List Nat) (cells nnz : Nat) (parts : List LossTerms)
    (X Y : List (Vec f ℝ)) (reg : ℝ) : ℝ :=
  A.div (first.foldl (fun o b => A.add o (gpuLossBlock A Q grid parts X Y reg b)) A.zero)
    (A.sub (A.add (second.foldl (fun o b => A.add o (gpuConfidenceBlock A grid parts X b)) A.zero) (r.rnd cells)) (r.rnd nnz))

/-- `LeastSquaresSolver::calculate_loss` (`implicit/gpu/als.cu:254-282`) of a matrix with `cols` columns; `grid` is 1024. -/
noncomputable def roundGpuLoss (r : Rounding ℝ) (grid : Nat) (first second : List Nat) (C : SpRows ℝ) (cols : Nat) (X Y : List (Vec f ℝ))
    (order : Fin f → Fin f → SumTree Y.length) (reg : ℝ) : Except Err ℝ := do
  let Q := gpuCgProducts A (roundBlockDot A) (gpuRegularised A (roundGram r Y order) 0)
  let parts ← X.zipIdx.mapM (gpuLossPart A Q C Y)
  pure (gpuLossSums A Q r grid first second (C.length * cols) (C.map List.length).sum parts X Y reg)

end

end Implicit
