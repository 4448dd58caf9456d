import Verif.Model.RoundKnn
import Verif.Model.Rounding
/-!
# TF-IDF and BM25 weights in floating point (`implicit/nearest_neighbours.py:195-252`)

`r` rounds to double precision, `s` to the precision of the ratings (`float32` or `float64`: in numpy an array times a Python number keeps
the precision of the array).  The logarithms come from a library with a relative error.
-/

namespace Implicit

/-- The functions `numpy.log` and `numpy.log1p`, with relative error `v` for the arguments that occur. -/
structure LogLibrary (v : ℝ) where
  log : ℝ → ℝ
  log1p : ℝ → ℝ
  log_err : ∀ x, 1 ≤ x → |log x - Real.log x| ≤ v * Real.log x
  log1p_err : ∀ x, 0 ≤ x → |log1p x - Real.log (1 + x)| ≤ v * Real.log (1 + x)

noncomputable section

variable {v : ℝ} (L : LogLibrary v) (s r : Rounding ℝ)

/-- `idf = log(N) - log1p(bincount(X.col))` (`implicit/nearest_neighbours.py:221-222,242-243`), in double precision. -/
def roundIdf (X : Coo) (c : Nat) : ℝ :=
  r.rnd (L.log X.nrows - L.log1p (bincount (X.entries.map fun e => e.2.1) c))

/-- `tfidf_weight` (`implicit/nearest_neighbours.py:216-226`): the root in the precision of the ratings, the product in double
precision. -/
def roundTfidf (X : Coo) : Coo :=
  { X with entries := X.entries.map fun e => (e.1, e.2.1, r.rnd (s.rnd (Real.sqrt e.2.2) * roundIdf L r X e.2.1)) }

/-- `row_sums = np.ravel(X.sum(axis=1))` (`:246`): `coo_matvec` adds the entries one after the other. -/
def roundRowSum (X : Coo) (i : Nat) : ℝ := roundBincount s (X.entries.map fun e => (e.1, e.2.2)) i

/-- `average_length = row_sums.mean()` (`:247`): numpy's sum, in any order, divided by the number of rows in double precision and
rounded to the precision of the sums. -/
def roundAverage (X : Coo) (t : SumTree X.nrows) : ℝ :=
  s.rnd (r.rnd (t.eval s (fun i => roundRowSum s X i) (fun _ => 1) / X.nrows))

/-- `length_norm` (`:248`).  `1.0 - B` is a Python float. -/
def roundLengthNorm (B : ℝ) (X : Coo) (t : SumTree X.nrows) (i : Nat) : ℝ :=
  s.rnd (s.rnd (r.rnd (1 - B)) + s.rnd (s.rnd (s.rnd B * roundRowSum s X i) / roundAverage s r X t))

/-- `bm25_weight` (`implicit/nearest_neighbours.py:237-252`).  `K1 + 1.0` is a Python float; only the product with `idf` is in double
precision. -/
def roundBm25 (K1 B : ℝ) (X : Coo) (t : SumTree X.nrows) : Coo :=
  { X with entries := X.entries.map fun e =>
      (e.1, e.2.1, r.rnd (s.rnd (s.rnd (e.2.2 * s.rnd (r.rnd (K1 + 1))) /
        s.rnd (s.rnd (s.rnd K1 * roundLengthNorm s r B X t e.1) + e.2.2)) * roundIdf L r X e.2.1)) }

/-- `TFIDFRecommender.fit` (`implicit/nearest_neighbours.py:198-200`). -/
def roundTfidfFit (H : HeapImpl (ℝ × Nat) pairLt) (n K : Nat) (counts : SpRows ℝ) : Except Err (SpRows ℝ) :=
  roundKnnFit H r n K (userRows counts.length (roundNormalize r (roundTfidf L s r (itemUser n counts))))

/-- `BM25Recommender.fit` (`implicit/nearest_neighbours.py:211-213`). -/
def roundBm25Fit (H : HeapImpl (ℝ × Nat) pairLt) (n K : Nat) (K1 B : ℝ) (t : SumTree n) (counts : SpRows ℝ) : Except Err (SpRows ℝ) :=
  roundKnnFit H r n K (userRows counts.length (roundBm25 L s r K1 B (itemUser n counts) t))

end

end Implicit
