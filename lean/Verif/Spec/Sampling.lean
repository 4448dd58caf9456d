import Mathlib.Data.List.Basic
/-!
# Equally likely outcomes, by counting

Random words are taken to be independent and uniform below `W`: all sequences of `c` words are equally
likely.
-/

namespace Implicit.Spec

/-- All sequences of `c` words below `W`. -/
def wordSeqs (W : Nat) : Nat → List (List Nat)
  | 0 => [[]]
  | c + 1 => (List.range W).flatMap fun w => (wordSeqs W c).map fun ws => w :: ws

/-- The number of sequences of `c` words that make `pick` return `k` and use up exactly these words. -/
def ways {α : Type} [DecidableEq α] (W : Nat) (pick : List Nat → Option (α × List Nat)) (c : Nat) (k : α) :
    Nat :=
  (wordSeqs W c).countP fun ws => pick ws = some (k, [])

/-- `pick` gives every outcome in `outcomes` with the same probability, whatever the number of words it
takes, and no other outcome. -/
def Fair {α : Type} [DecidableEq α] (W : Nat) (pick : List Nat → Option (α × List Nat))
    (outcomes : α → Prop) : Prop :=
  (∀ c k k', outcomes k → outcomes k' → ways W pick c k = ways W pick c k') ∧
    ∀ ws, (∀ w ∈ ws, w < W) → ∀ k rest, pick ws = some (k, rest) → outcomes k

/-- How often column `i` is stored in row `u` (0 or 1 for a canonical matrix). -/
def storedIn (matrix : List (List Nat)) (u i : Nat) : Nat := (matrix[u]?.getD []).count i

/-- How often column `j` is stored in the whole matrix. -/
def popularity (matrix : List (List Nat)) (j : Nat) : Nat := (matrix.map (List.count j)).sum

end Implicit.Spec
