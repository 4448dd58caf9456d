import Verif.Model.RoundCG
/-!
# The training loss in floating point

`_calculate_loss` (`implicit/cpu/_als.pyx:251-308`) on real numbers with rounded operations: `A` are those of the factors (`floating`), `D`
those of C's `double`, in which the sums over the rows are kept.  `prange` with a dynamic schedule gives each thread some rows; each thread
starts its own sums at zero, and these are added one after another at the end of the parallel section (OpenMP reduction).  Overflow,
underflow and NaN are not included; the integer `Cui.shape[0] * Cui.shape[1]` is taken to be below `2^53`.
-/

namespace Implicit

variable {f : Nat}

section
variable (A D : FloatOps ℝ) (P : BlasProducts f)

/-- The array `r` after the entries of a row (`implicit/cpu/_als.pyx:280-296`). -/
noncomputable def roundLossVector (G : Mat f ℝ) (es : List (Vec f ℝ × ℝ)) (x : Vec f ℝ) : Vec f ℝ :=
  es.foldl (fun r e =>
      if A.lt A.zero e.2 then A.axpyVec (A.axpy (A.sub e.2 A.one) (P.dot e.1 x) (A.mul (-2) e.2)) e.1 r
      else A.axpyVec (A.axpy (A.sub (A.mul A.negOne e.2) A.one) (P.dot e.1 x) A.zero) e.1 r)
    (P.symv G x)

/-- `confidence` of a stored value (`implicit/cpu/_als.pyx:285-293`). -/
noncomputable def roundConfidence (c : ℝ) : ℝ := if A.lt A.zero c then c else A.mul A.negOne c

/-- What a row adds to the sums (`implicit/cpu/_als.pyx:282-302`). -/
structure LossTerms where
  confidences : List ℝ
  product : ℝ
  norm : ℝ

/-- The terms of a row (`implicit/cpu/_als.pyx:278-302`). -/
noncomputable def roundLossRow (G : Mat f ℝ) (es : List (Vec f ℝ × ℝ)) (x : Vec f ℝ) : LossTerms :=
  ⟨es.map fun e => roundConfidence A e.2, P.dot (roundLossVector A P G es x) x, P.dot x x⟩

/-- The loop body for user `u` with factor `x` (`implicit/cpu/_als.pyx:278-302`). -/
noncomputable def roundLossPart (G : Mat f ℝ) (C : SpRows ℝ) (Y : List (Vec f ℝ)) (xu : Vec f ℝ × Nat) : Except Err LossTerms :=
  match C[xu.2]? with
  | none => .error .undefinedBehaviour
  | some row => do
    let es ← rowEntries .undefinedBehaviour Y row
    pure (roundLossRow A P G es xu.1)

/-- The sum of the terms of all rows: each thread adds those of its rows to zero, in the order in which it handles them, then the sums of
the threads are added (`implicit/cpu/_als.pyx:273,297-306`). -/
noncomputable def threadSum (threads : List (List Nat)) (terms : Nat → List ℝ) : ℝ :=
  threads.foldl (fun s rows => D.add s (rows.foldl (fun s i => (terms i).foldl D.add s) D.zero)) D.zero

/-- The sums over users and items, and the result (`implicit/cpu/_als.pyx:275-308`). -/
noncomputable def roundLossSums (users items : List (List Nat)) (cells nnz : Nat) (parts : List LossTerms) (Y : List (Vec f ℝ)) (reg : ℝ) : ℝ :=
  let loss := threadSum D users fun i => (parts[i]?.map fun t => t.confidences ++ [t.product]).getD []
  let confidence := threadSum D users fun i => (parts[i]?.map LossTerms.confidences).getD []
  let userNorm := threadSum D users fun i => (parts[i]?.map fun t => [t.norm]).getD []
  let itemNorm := threadSum D items fun i => (Y[i]?.map fun y => [P.dot y y]).getD []
  D.div (D.axpy reg (D.add itemNorm userNorm) loss) (D.sub (D.add confidence cells) nnz)

/-- `calculate_loss` (`implicit/cpu/_als.pyx:251-308`) of a matrix with `cols` columns, the rows of both loops divided among threads. -/
noncomputable def roundCalculateLoss (r : Rounding ℝ) (users items : List (List Nat)) (C : SpRows ℝ) (cols : Nat) (X Y : List (Vec f ℝ))
    (order : Fin f → Fin f → SumTree Y.length) (reg : ℝ) : Except Err ℝ := do
  let parts ← X.zipIdx.mapM (roundLossPart A P (roundGram r Y order) C Y)
  pure (roundLossSums D P users items (C.length * cols) (C.map List.length).sum parts Y reg)

end

end Implicit
