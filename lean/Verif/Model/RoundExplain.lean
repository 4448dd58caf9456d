import Verif.Model.ALSState
import Verif.Model.RoundALS
/-!
# `explain` in floating point

`implicit/cpu/als.py:350-415` on real numbers with rounded operations.  `A` are the operations in the precision of the factors
(`float32` unless chosen otherwise); `D` and `d` are those of `float64`, in which `np.eye` and so the matrix, the solution, the
contributions and their sum are held.  Overflow and underflow are not included.
-/

namespace Implicit

variable {f : Nat}

section
variable (A D : FloatOps ℝ)

/-- `confidence - 1` (`implicit/cpu/als.py:506-511`); the sign of a negative confidence is dropped first. -/
noncomputable def explainFactor (c : ℝ) : ℝ := A.sub (if A.lt A.zero c then c else A.mul c A.negOne) A.one

/-- The matrix of `user_linear_equation` (`implicit/cpu/als.py:492-512`).  `G` is `YtY`, `es` the factors and confidences of the row. -/
noncomputable def explainMatrix (G : Mat f ℝ) (reg : ℝ) (es : List (Vec f ℝ × ℝ)) : Mat f ℝ :=
  es.foldl (fun s e a b => D.add (s a b) (A.mul (explainFactor A e.2) (A.mul (e.1 a) (e.1 b)))) (D.regularised G reg)

/-- The contributions `(score, item)` of the stored entries that are not negative (`implicit/cpu/als.py:395-404`); `sums i` is the
order in which the inner product with item `i` is added. -/
noncomputable def roundExplainScores (d : Rounding ℝ) (sums : Nat → SumTree f) (w : Vec f ℝ) (Y : List (Vec f ℝ)) :
    List (Nat × ℝ) → Except Err (List (ℝ × Nat))
  | [] => .ok []
  | (i, c) :: row =>
    if D.lt c D.zero then roundExplainScores d sums w Y row
    else
      match Y[i]? with
      | none => .error .indexError
      | some y => do pure ((D.mul ((sums i).eval d w y) c, i) :: (← roundExplainScores d sums w Y row))

/-- `explain` (`implicit/cpu/als.py:350-415`) for the user whose stored entries, multiplied by `alpha`, are `row`.  `weights` is what an
earlier call returned, represented by the matrix it factorises.  `chol` is `cho_factor` followed by `cho_solve`, `none` a `LinAlgError`;
`cho_factor` reads the upper triangle, and `chol` is given the transposed matrix. -/
noncomputable def roundExplain (H : HeapImpl (ℝ × Nat) pairLt) (r d : Rounding ℝ) (chol : Mat f ℝ → Vec f ℝ → Option (Vec f ℝ))
    (Y : List (Vec f ℝ)) (order : Fin f → Fin f → SumTree Y.length) (sums : Nat → SumTree f) (reg : ℝ) (row : List (Nat × ℝ))
    (itemid : Nat) (weights : Option (Mat f ℝ)) (N : Nat) : Except Err (Explanation f ℝ) := do
  let M ← match weights with
    | some M => .ok M
    | none => do pure (explainMatrix A D (roundGram r Y order) reg (← rowEntries .indexError Y row))
  let seed ← match Y[itemid]? with
    | none => .error .indexError
    | some y => .ok y
  let w ← match chol (fun a b => M b a) seed with
    | none => .error .valueError
    | some w => .ok w
  let scores ← roundExplainScores D d sums w Y row
  let h := scores.foldl (keepLargest H N) []
  pure ⟨(scores.map Prod.fst).foldl D.add D.zero, ((drainHeap H h.length h).map fun c => (c.2, c.1)).reverse, M⟩

end

end Implicit
