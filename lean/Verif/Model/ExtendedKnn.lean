import Verif.Model.Extended
import Verif.Model.RoundKnn
/-!
# Item-item models in floating point with a largest number

The code of `Verif.Model.RoundKnn` with infinities and NaN.  The heap of `TopK` is only modelled for finite similarities: a row in which
another one appears ends the model with `none`, whatever `TopK` makes of it.
-/

namespace Implicit

section
variable {R : Type} [LinearOrder R] [Field R]

instance : Zero (Ext R) := ⟨.fin 0⟩

/-- `sums[index] += value`. -/
@[reducible] def Ext.toAdd (r : Rounding R) (Ω : R) : Add (Ext R) := ⟨Ext.add r Ω⟩

/-- A sequence of calls of `add` (`implicit/nearest_neighbours.h:47-55`). -/
def extAddAll (r : Rounding R) (Ω : R) (a : Accum (Ext R)) (es : List (Nat × Ext R)) : Except Err (Accum (Ext R)) :=
  letI := Ext.toAdd r Ω
  a.addAll es

/-- The calls of `add` made by two nested loops over sparse rows (`implicit/_nearest_neighbours.pyx:73-79` and `142-148`). -/
def extProducts (r : Rounding R) (Ω : R) (M : SpRows R) : List (Nat × R) → Except Err (List (Nat × Ext R))
  | [] => .ok []
  | e :: row =>
    match M[e.1]? with
    | none => .error .undefinedBehaviour
    | some m => do
      let rest ← extProducts r Ω M row
      pure (m.map (fun x => (x.1, Ext.ofExact r Ω (x.2 * e.2))) ++ rest)

/-- The pairs, if all are finite. -/
def finitePairs : List (Nat × Ext R) → Option (List (Nat × R))
  | [] => some []
  | (i, .fin x) :: l => (finitePairs l).map ((i, x) :: ·)
  | _ => none

/-- One iteration of the loop of `all_pairs_knn` up to the copy of the results (`implicit/_nearest_neighbours.pyx:142-151`). -/
def extRow (H : HeapImpl (R × Nat) pairLt) (r : Rounding R) (Ω : R) (K : Nat) (users : SpRows R) (itemRow : List (Nat × R))
    (a : Accum (Ext R)) : Except Err (Option (List (R × Nat)) × Accum (Ext R)) := do
  let adds ← extProducts r Ω users itemRow
  let a ← extAddAll r Ω a adds
  let d ← a.foreach
  match finitePairs d.1 with
  | none => pure (none, d.2)
  | some l => do
    let h ← offerAll H K [] (l.map Prod.swap)
    pure (some h, d.2)

/-- The loop over the items run by one thread, from item `i` on. -/
def extLoop (H : HeapImpl (R × Nat) pairLt) (r : Rounding R) (Ω : R) (n K : Nat) (users : SpRows R) :
    Nat → SpRows R → Accum (Ext R) → Except Err (Option (List (Nat × KnnCell R)) × Accum (Ext R))
  | _, [], a => .ok (some [], a)
  | i, row :: rows, a => do
    let d ← extRow H r Ω K users row a
    match d.1 with
    | none => pure (none, d.2)
    | some h => do
      let ws ← knnStores n K i h
      let rest ← extLoop H r Ω n K users (i + 1) rows d.2
      pure (rest.1.map (ws ++ ·), rest.2)

/-- `ItemItemRecommender.fit` (`implicit/nearest_neighbours.py:30-41`, `implicit/_nearest_neighbours.pyx:111-170`). -/
def extKnnFit (H : HeapImpl (R × Nat) pairLt) (r : Rounding R) (Ω : R) (n K : Nat) (weighted : SpRows R) : Except Err (Option (SpRows R)) := do
  let d ← extLoop H r Ω n K weighted 0 (transposeRows n weighted) (Accum.new n)
  match d.1 with
  | none => pure none
  | some ws => do
    let cells ← writeAll (List.replicate (knnAllocated n K) (0, 0, 0)) ws
    pure (some (cooToCsr n cells))

/-- `NearestNeighboursScorer.recommend` (`implicit/_nearest_neighbours.pyx:60-105`). -/
def extScorer (H : HeapImpl (R × Nat) pairLt) (r : Rounding R) (Ω : R) (sim : SpRows R) (a : Accum (Ext R))
    (row : List (Nat × R)) (K : Nat) (removeOwnLikes : Bool) : Except Err (Option (List (Nat × R)) × Accum (Ext R)) := do
  let adds ← extProducts r Ω sim row
  let a ← extAddAll r Ω a adds
  let a ← if removeOwnLikes then a.clearAll (row.map Prod.fst) else pure a
  let d ← a.foreach
  match finitePairs d.1 with
  | none => pure (none, d.2)
  | some l => do
    let h ← offerAll H K [] (l.map Prod.swap)
    pure (some ((H.sort h).map Prod.swap), d.2)

end

/-- The weights of `normalize` (`implicit/nearest_neighbours.py:229-234`): square, `bincount`, square root and quotient. -/
noncomputable def extNormalize (r : Rounding ℝ) (Ω : ℝ) (X : Coo) : List (Nat × Nat × Ext ℝ) :=
  X.entries.map fun e =>
    (e.1, e.2.1, Ext.div r Ω (.fin e.2.2)
      (Ext.sqrt r Ω (((X.entries.filter fun x => x.1 == e.1).map fun x => Ext.ofExact r Ω (x.2.2 ^ 2)).foldl (Ext.add r Ω) (.fin 0))))

end Implicit
