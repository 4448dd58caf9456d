import Verif.Model.Ann
import Mathlib.Analysis.Real.Sqrt
/-!
# `augment_inner_product_matrix` (`implicit/utils.py:86-103`), in exact arithmetic
-/

namespace Implicit

variable {f : Nat}

/-- One row with the extra dimension `sqrt(max_norm**2 - norm**2)` (`implicit/utils.py:102-103`). -/
noncomputable def augmentRow (norm : Vec f ℝ → ℝ) (maxNorm : ℝ) (y : Vec f ℝ) : Vec (f + 1) ℝ :=
  Fin.snoc y (Real.sqrt (maxNorm ^ 2 - norm y ^ 2))

/-- `implicit/utils.py:86-103`, `augment_inner_product_matrix`: `max()` of an empty array raises. -/
noncomputable def augment (norm : Vec f ℝ → ℝ) (factors : List (Vec f ℝ)) :
    Except Err (ℝ × List (Vec (f + 1) ℝ)) :=
  match factors.map norm with
  | [] => .error .valueError
  | n :: ns =>
    let maxNorm := ns.foldl max n
    .ok (maxNorm, factors.map (augmentRow norm maxNorm))

end Implicit
