import Verif.Model.ExtendedKnn
/-!
# Cosine similarities in floating point with a largest number

`CosineRecommender` with infinities and NaN.  As in `Verif.Model.ExtendedKnn` the model ends with `none` when a weight is not finite.
-/

namespace Implicit

/-- The weights, if all are finite. -/
def finiteEntries {R : Type} : List (Nat × Nat × Ext R) → Option (List (Nat × Nat × R))
  | [] => some []
  | (i, u, .fin x) :: l => (finiteEntries l).map ((i, u, x) :: ·)
  | _ => none

/-- `CosineRecommender.fit` (`implicit/nearest_neighbours.py:190-192`). -/
noncomputable def extCosineFit (H : HeapImpl (ℝ × Nat) pairLt) (r : Rounding ℝ) (Ω : ℝ) (n K : Nat) (counts : SpRows ℝ) :
    Except Err (Option (SpRows ℝ)) :=
  match finiteEntries (extNormalize r Ω (itemUser n counts)) with
  | none => .ok none
  | some entries => extKnnFit H r Ω n K (userRows counts.length ⟨n, entries⟩)

end Implicit
