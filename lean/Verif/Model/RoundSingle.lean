import Verif.Model.ExtendedCosine
/-!
# Cosine similarities of ratings in single precision

For `float32` ratings `X.data**2` is an array of `float32`, while `bincount` adds in double precision, and the root and the quotient by it are in double
precision.  `s` rounds to the precision of the ratings, whose largest number is `Ωs`, and `r` to double precision.
-/

namespace Implicit

/-- `normalize` (`implicit/nearest_neighbours.py:229-234`). -/
noncomputable def singleNormalize (s r : Rounding ℝ) (X : Coo) : Coo :=
  { X with entries := X.entries.map fun e =>
      (e.1, e.2.1, r.rnd (e.2.2 /
        r.rnd (Real.sqrt (roundBincount r (X.entries.map fun e => (e.1, s.rnd (e.2.2 ^ 2))) e.1)))) }

/-- `CosineRecommender.fit` (`implicit/nearest_neighbours.py:190-192`). -/
noncomputable def singleCosineFit (H : HeapImpl (ℝ × Nat) pairLt) (s r : Rounding ℝ) (n K : Nat) (counts : SpRows ℝ) :
    Except Err (SpRows ℝ) :=
  roundKnnFit H r n K (userRows counts.length (singleNormalize s r (itemUser n counts)))

/-- `normalize` (`implicit/nearest_neighbours.py:229-234`), with infinities and NaN; the conversion of a square to double precision is exact. -/
noncomputable def extSingleNormalize (s r : Rounding ℝ) (Ωs Ω : ℝ) (X : Coo) : List (Nat × Nat × Ext ℝ) :=
  X.entries.map fun e =>
    (e.1, e.2.1, Ext.div r Ω (.fin e.2.2)
      (Ext.sqrt r Ω (((X.entries.filter fun x => x.1 == e.1).map fun x => Ext.ofExact s Ωs (x.2.2 ^ 2)).foldl (Ext.add r Ω) (.fin 0))))

/-- `CosineRecommender.fit` (`implicit/nearest_neighbours.py:190-192`), with infinities and NaN. -/
noncomputable def extSingleFit (H : HeapImpl (ℝ × Nat) pairLt) (s r : Rounding ℝ) (Ωs Ω : ℝ) (n K : Nat) (counts : SpRows ℝ) :
    Except Err (Option (SpRows ℝ)) :=
  match finiteEntries (extSingleNormalize s r Ωs Ω (itemUser n counts)) with
  | none => .ok none
  | some entries => extKnnFit H r Ω n K (userRows counts.length ⟨n, entries⟩)

end Implicit
