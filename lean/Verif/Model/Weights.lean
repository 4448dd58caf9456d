import Verif.Model.NearestNeighbours
import Mathlib.Analysis.SpecialFunctions.Log.Basic
import Mathlib.Analysis.Real.Sqrt
/-!
# Weighting of the ratings before item-item models (`implicit/nearest_neighbours.py:187-252`)

Real arithmetic.  A division by zero is `0` here but NaN or infinity in numpy; theorems exclude it.
-/

namespace Implicit

noncomputable section

/-- A `coo_matrix`: number of rows and the triples `(row, col, data)`. -/
structure Coo where
  nrows : Nat
  entries : List (Nat × Nat × ℝ)

/-- `bincount(idx)[k]`. -/
def bincount (idx : List Nat) (k : Nat) : Nat := idx.count k

/-- `bincount(idx, weights)[k]`, the list holding the pairs (index, weight). -/
def bincountW (iw : List (Nat × ℝ)) (k : Nat) : ℝ := ((iw.filter fun e => e.1 == k).map Prod.snd).sum

/-- `idf = log(N) - log1p(bincount(X.col))` (`implicit/nearest_neighbours.py:221-222,242-243`). -/
def idf (X : Coo) (c : Nat) : ℝ :=
  Real.log X.nrows - Real.log (1 + bincount (X.entries.map fun e => e.2.1) c)

/-- `tfidf_weight` (`implicit/nearest_neighbours.py:216-226`). -/
def tfidfWeight (X : Coo) : Coo :=
  { X with entries := X.entries.map fun e => (e.1, e.2.1, Real.sqrt e.2.2 * idf X e.2.1) }

/-- `normalize` (`implicit/nearest_neighbours.py:229-234`). -/
def normalizeRows (X : Coo) : Coo :=
  { X with entries := X.entries.map fun e =>
      (e.1, e.2.1, e.2.2 / Real.sqrt (bincountW (X.entries.map fun e => (e.1, e.2.2 ^ 2)) e.1)) }

/-- `row_sums = np.ravel(X.sum(axis=1))` (`:246`). -/
def rowSum (X : Coo) (r : Nat) : ℝ := bincountW (X.entries.map fun e => (e.1, e.2.2)) r

/-- `average_length = row_sums.mean()` (`:247`). -/
def averageLength (X : Coo) : ℝ := ((List.range X.nrows).map (rowSum X)).sum / X.nrows

/-- `length_norm` (`:248`). -/
def lengthNorm (B : ℝ) (X : Coo) (r : Nat) : ℝ := (1 - B) + B * rowSum X r / averageLength X

/-- `bm25_weight` (`implicit/nearest_neighbours.py:237-252`). -/
def bm25Weight (K1 B : ℝ) (X : Coo) : Coo :=
  { X with entries := X.entries.map fun e =>
      (e.1, e.2.1, e.2.2 * (K1 + 1) / (K1 * lengthNorm B X e.1 + e.2.2) * idf X e.2.1) }

/-- `coo_matrix(counts.T)` for the CSR rows of `counts` (users × items, `n` items): the triples
(item, user, value), user by user. -/
def itemUser (n : Nat) (counts : SpRows ℝ) : Coo :=
  ⟨n, counts.zipIdx.flatMap fun p => p.1.map fun e => (e.1, p.2, e.2)⟩

/-- `X.T` and `tocsr()` in `all_pairs_knn` (`check_csr`, `implicit/_nearest_neighbours.pyx:115`) for `users`
users. -/
def userRows (users : Nat) (X : Coo) : SpRows ℝ :=
  cooToCsr users (X.entries.map fun e => (e.2.1, e.1, e.2.2))

/-- `CosineRecommender.fit` (`implicit/nearest_neighbours.py:190-192`). -/
def cosineFit (H : HeapImpl (ℝ × Nat) pairLt) (n K : Nat) (counts : SpRows ℝ) (callback : Bool) :
    Except Err (SpRows ℝ) :=
  knnFit H n K (userRows counts.length (normalizeRows (itemUser n counts))) callback

/-- `TFIDFRecommender.fit` (`implicit/nearest_neighbours.py:198-200`). -/
def tfidfFit (H : HeapImpl (ℝ × Nat) pairLt) (n K : Nat) (counts : SpRows ℝ) (callback : Bool) :
    Except Err (SpRows ℝ) :=
  knnFit H n K (userRows counts.length (normalizeRows (tfidfWeight (itemUser n counts)))) callback

/-- `BM25Recommender.fit` (`implicit/nearest_neighbours.py:211-213`). -/
def bm25Fit (H : HeapImpl (ℝ × Nat) pairLt) (n K : Nat) (K1 B : ℝ) (counts : SpRows ℝ)
    (callback : Bool) : Except Err (SpRows ℝ) :=
  knnFit H n K (userRows counts.length (bm25Weight K1 B (itemUser n counts))) callback

end

end Implicit
