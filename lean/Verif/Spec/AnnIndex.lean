import Verif.Spec.Ranking
import Mathlib.Analysis.Real.Sqrt
/-!
# Exact search in a list of labelled vectors

What an index library would answer if it were exact; used by C59.
-/

namespace Implicit.Spec

/-- The vector stored under identifier `i`. -/
def stored {V : Type} (idx : List (Nat × V)) (i : Nat) : Option V := (idx.find? fun e => e.1 == i).map Prod.snd

/-- Annoy and NMSLib: asked for the `k` nearest vectors, the library answers with the identifiers and distances of the `k`
nearest ones (all of them if there are fewer), nearest first. -/
def NearestLabelled {V : Type} (dist : V → V → ℝ) (idx : List (Nat × V)) (search : V → Nat → List (Int × ℝ)) : Prop :=
  ∀ q k, ∃ out : List (Nat × ℝ), search q k = out.map (fun p => ((p.1 : Int), p.2)) ∧
    IsRanking k (fun i => (stored idx i).isSome) (fun i => (stored idx i).map fun y => -dist q y)
      (out.map fun p => (p.1, -p.2))

/-- Faiss: the `k` vectors with the largest inner products; if there are fewer than `k` vectors, the answer is filled up
with identifier -1 and the score `lowest`. -/
def LargestLabelled {V : Type} (inner : V → V → ℝ) (lowest : ℝ) (idx : List (Nat × V))
    (search : V → Nat → List (Int × ℝ)) : Prop :=
  ∀ q k, ∃ out : List (Nat × ℝ),
    search q k = out.map (fun p => ((p.1 : Int), p.2)) ++ List.replicate (k - idx.length) (-1, lowest) ∧
    IsRanking k (fun i => (stored idx i).isSome) (fun i => (stored idx i).map (inner q)) out

end Implicit.Spec
