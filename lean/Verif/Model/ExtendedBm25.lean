import Verif.Model.ExtendedTfidf
/-!
# BM25 weights in floating point with a largest number

`BM25Recommender` with infinities and NaN.  As in `Verif.Model.RoundWeights`, `s` rounds to the precision of the ratings, whose largest number is
`Ωs`, and `r` to double precision with largest number `Ω`.
-/

namespace Implicit

/-- Conversion to the precision of `r`. -/
def Ext.convert {R : Type} [Field R] [LinearOrder R] (r : Rounding R) (Ω : R) : Ext R → Ext R
  | .fin x => .ofExact r Ω x
  | e => e

/-- numpy's sum of floats, in any order. -/
def SumTree.extSum {R : Type} [Field R] [LinearOrder R] {f : Nat} (r : Rounding R) (Ω : R) (x : Fin f → Ext R) : SumTree f → Ext R
  | .leaf i => .convert r Ω (x i)
  | .add l m => .add r Ω (l.extSum r Ω x) (m.extSum r Ω x)
  | .fma i t => .add r Ω (x i) (t.extSum r Ω x)

noncomputable section

variable {v : ℝ} (L : LogLibrary v) (s r : Rounding ℝ) (Ωs Ω : ℝ)

/-- `row_sums = np.ravel(X.sum(axis=1))` (`implicit/nearest_neighbours.py:246`). -/
def extRowSum (X : Coo) (i : Nat) : Ext ℝ :=
  ((X.entries.filter fun e => e.1 == i).map fun e => Ext.fin e.2.2).foldl (Ext.add s Ωs) (.fin 0)

/-- `average_length = row_sums.mean()` (`:247`). -/
def extAverage (X : Coo) (t : SumTree X.nrows) : Ext ℝ :=
  .convert s Ωs (.div r Ω (t.extSum s Ωs fun i => extRowSum s Ωs X i) (.fin X.nrows))

/-- `length_norm` (`:248`). -/
def extLengthNorm (B : ℝ) (X : Coo) (t : SumTree X.nrows) (i : Nat) : Ext ℝ :=
  .add s Ωs (.convert s Ωs (.ofExact r Ω (1 - B)))
    (.div s Ωs (.mul s Ωs (.ofExact s Ωs B) (extRowSum s Ωs X i)) (extAverage s r Ωs Ω X t))

/-- `bm25_weight` (`implicit/nearest_neighbours.py:237-252`). -/
def extBm25 (K1 B : ℝ) (X : Coo) (t : SumTree X.nrows) : List (Nat × Nat × Ext ℝ) :=
  X.entries.map fun e => (e.1, e.2.1, .mul r Ω
    (.div s Ωs (.mul s Ωs (.fin e.2.2) (.convert s Ωs (.ofExact r Ω (K1 + 1))))
      (.add s Ωs (.mul s Ωs (.ofExact s Ωs K1) (extLengthNorm s r Ωs Ω B X t e.1)) (.fin e.2.2)))
    (extIdf L r Ω X e.2.1))

/-- `BM25Recommender.fit` (`implicit/nearest_neighbours.py:211-213`). -/
def extBm25Fit (H : HeapImpl (ℝ × Nat) pairLt) (n K : Nat) (K1 B : ℝ) (t : SumTree n) (counts : SpRows ℝ) : Except Err (Option (SpRows ℝ)) :=
  match finiteEntries (extBm25 L s r Ωs Ω K1 B (itemUser n counts) t) with
  | none => .ok none
  | some weights => extKnnFit H r Ω n K (userRows counts.length ⟨n, weights⟩)

end

end Implicit
