import Verif.Model.Rounding
import Verif.Model.Weights
/-!
# Item-item models in floating point

The code of `Verif.Model.NearestNeighbours` and `Verif.Model.Weights` once more, with a rounding after every operation.  The order of
the additions is that of the loops; scipy adds nothing when it converts matrices without repeated cells.
-/

namespace Implicit

section
variable {R : Type} [LinearOrder R] [Field R]

/-- Addition as the machine does it. -/
@[reducible] def Rounding.toAdd (r : Rounding R) : Add R := ⟨fun a b => r.rnd (a + b)⟩

/-- A sequence of calls of `add` (`implicit/nearest_neighbours.h:47-55`), `sums[index] += value` in floating point. -/
def roundAddAll (r : Rounding R) (a : Accum R) (es : List (Nat × R)) : Except Err (Accum R) :=
  letI := r.toAdd
  a.addAll es

/-- The calls of `add` made by two nested loops over sparse rows (`implicit/_nearest_neighbours.pyx:73-79` and `142-148`). -/
def roundProducts (r : Rounding R) (M : SpRows R) : List (Nat × R) → Except Err (List (Nat × R))
  | [] => .ok []
  | e :: row =>
    match M[e.1]? with
    | none => .error .undefinedBehaviour
    | some m => do
      let rest ← roundProducts r M row
      pure (m.map (fun x => (x.1, r.rnd (x.2 * e.2))) ++ rest)

/-- One iteration of the loop of `all_pairs_knn` up to the copy of the results (`implicit/_nearest_neighbours.pyx:142-151`). -/
def roundRow (H : HeapImpl (R × Nat) pairLt) (r : Rounding R) (K : Nat) (users : SpRows R) (itemRow : List (Nat × R))
    (a : Accum R) : Except Err (List (R × Nat) × Accum R) := do
  let adds ← roundProducts r users itemRow
  let a ← roundAddAll r a adds
  let d ← a.foreach
  let h ← offerAll H K [] (d.1.map Prod.swap)
  pure (h, d.2)

/-- The loop over the items run by one thread, from item `i` on. -/
def roundLoop (H : HeapImpl (R × Nat) pairLt) (r : Rounding R) (n K : Nat) (users : SpRows R) :
    Nat → SpRows R → Accum R → Except Err (List (Nat × KnnCell R) × Accum R)
  | _, [], a => .ok ([], a)
  | i, row :: rows, a => do
    let d ← roundRow H r K users row a
    let ws ← knnStores n K i d.1
    let rest ← roundLoop H r n K users (i + 1) rows d.2
    pure (ws ++ rest.1, rest.2)

/-- `ItemItemRecommender.fit` (`implicit/nearest_neighbours.py:30-41`, `implicit/_nearest_neighbours.pyx:111-170`): the similarity
matrix.  `tocsr` only adds the zeros of unused slots, which is exact. -/
def roundKnnFit (H : HeapImpl (R × Nat) pairLt) (r : Rounding R) (n K : Nat) (weighted : SpRows R) : Except Err (SpRows R) := do
  let d ← roundLoop H r n K weighted 0 (transposeRows n weighted) (Accum.new n)
  let cells ← writeAll (List.replicate (knnAllocated n K) (0, 0, 0)) d.1
  pure (cooToCsr n cells)

/-- `NearestNeighboursScorer.recommend` (`implicit/_nearest_neighbours.pyx:60-105`). -/
def roundScorer (H : HeapImpl (R × Nat) pairLt) (r : Rounding R) (sim : SpRows R) (a : Accum R)
    (row : List (Nat × R)) (K : Nat) (removeOwnLikes : Bool) : Except Err (List (Nat × R) × Accum R) := do
  let adds ← roundProducts r sim row
  let a ← roundAddAll r a adds
  let a ← if removeOwnLikes then a.clearAll (row.map Prod.fst) else pure a
  let d ← a.foreach
  let h ← offerAll H K [] (d.1.map Prod.swap)
  pure ((H.sort h).map Prod.swap, d.2)

/-- `bincount(idx, weights)[k]`: the weights are added one after the other. -/
def roundBincount (r : Rounding R) (iw : List (Nat × R)) (k : Nat) : R :=
  ((iw.filter fun e => e.1 == k).map Prod.snd).foldl (fun s v => r.rnd (s + v)) 0

end

/-- `normalize` (`implicit/nearest_neighbours.py:229-234`): squares, `bincount`, square root and quotient are rounded. -/
noncomputable def roundNormalize (r : Rounding ℝ) (X : Coo) : Coo :=
  { X with entries := X.entries.map fun e =>
      (e.1, e.2.1, r.rnd (e.2.2 /
        r.rnd (Real.sqrt (roundBincount r (X.entries.map fun e => (e.1, r.rnd (e.2.2 ^ 2))) e.1)))) }

/-- `CosineRecommender.fit` (`implicit/nearest_neighbours.py:190-192`). -/
noncomputable def roundCosineFit (H : HeapImpl (ℝ × Nat) pairLt) (r : Rounding ℝ) (n K : Nat) (counts : SpRows ℝ) :
    Except Err (SpRows ℝ) :=
  roundKnnFit H r n K (userRows counts.length (roundNormalize r (itemUser n counts)))

/-! ## Ties -/

section
variable {R : Type} [Field R] [LinearOrder R] [IsStrictOrderedRing R] [FloorRing R]

/-- The nearest integer; of two, the even one. -/
def roundEven (x : R) : Int :=
  if x - ⌊x⌋ < 1 / 2 then ⌊x⌋ else if 1 / 2 < x - ⌊x⌋ then ⌊x⌋ + 1 else if ⌊x⌋ % 2 = 0 then ⌊x⌋ else ⌊x⌋ + 1

/-- To nearest, ties to even, with subnormal numbers and without a largest exponent: IEEE 754 in the default mode (`double` is
`p = 53`, `emin = -1074`). -/
def ieeeBits (p : Nat) (emin : Int) (x : R) : R := roundEven (x / ulp p emin x) * ulp p emin x

end

end Implicit
