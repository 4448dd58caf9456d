import Verif.Model.ExtendedCosine
import Verif.Model.RoundWeights
/-!
# TF-IDF weights in floating point with a largest number

`TFIDFRecommender` with infinities and NaN.  As in `Verif.Model.RoundWeights`, `s` rounds to the precision of the ratings, whose largest number is `Ωs`;
the logarithms come from a library and are finite.
-/

namespace Implicit

/-- Multiplication. -/
def Ext.mul {R : Type} [Field R] [LinearOrder R] (r : Rounding R) (Ω : R) : Ext R → Ext R → Ext R
  | .nan, _ => .nan
  | _, .nan => .nan
  | .fin x, .fin y => .ofExact r Ω (x * y)
  | .fin x, .posInf => if x = 0 then .nan else if 0 < x then .posInf else .negInf
  | .fin x, .negInf => if x = 0 then .nan else if 0 < x then .negInf else .posInf
  | .posInf, .fin y => if y = 0 then .nan else if 0 < y then .posInf else .negInf
  | .negInf, .fin y => if y = 0 then .nan else if 0 < y then .negInf else .posInf
  | .posInf, .posInf => .posInf
  | .posInf, .negInf => .negInf
  | .negInf, .posInf => .negInf
  | .negInf, .negInf => .posInf

noncomputable section

variable {v : ℝ} (L : LogLibrary v) (s r : Rounding ℝ) (Ωs Ω : ℝ)

/-- `idf = log(N) - log1p(bincount(X.col))` (`implicit/nearest_neighbours.py:221-222`). -/
def extIdf (X : Coo) (c : Nat) : Ext ℝ :=
  .ofExact r Ω (L.log X.nrows - L.log1p (bincount (X.entries.map fun e => e.2.1) c))

/-- `tfidf_weight` (`implicit/nearest_neighbours.py:216-226`). -/
def extTfidf (X : Coo) : List (Nat × Nat × Ext ℝ) :=
  X.entries.map fun e => (e.1, e.2.1, Ext.mul r Ω (Ext.sqrt s Ωs (.fin e.2.2)) (extIdf L r Ω X e.2.1))

/-- `TFIDFRecommender.fit` (`implicit/nearest_neighbours.py:198-200`). -/
def extTfidfFit (H : HeapImpl (ℝ × Nat) pairLt) (n K : Nat) (counts : SpRows ℝ) : Except Err (Option (SpRows ℝ)) :=
  match finiteEntries (extTfidf L s r Ωs Ω (itemUser n counts)) with
  | none => .ok none
  | some weights =>
    match finiteEntries (extNormalize r Ω ⟨n, weights⟩) with
    | none => .ok none
    | some entries => extKnnFit H r Ω n K (userRows counts.length ⟨n, entries⟩)

end

end Implicit
