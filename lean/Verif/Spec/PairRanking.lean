import Verif.Spec.Gradient
import Verif.Spec.BPR
import Verif.Spec.Sampling
/-!
# Rankings learned from pairs

The factors of a whole ranking model, the scores they give, and the pairwise ranking objective of the BPR
paper over a matrix of interactions.
-/

namespace Implicit.Spec

noncomputable section

/-- Factors of all users and items, and the biases of the items (coordinates `0..n-1`). -/
structure RankFactors where
  user : ℕ → ℕ → ℝ
  item : ℕ → ℕ → ℝ
  bias : ℕ → ℝ

namespace RankFactors

/-- `x_u · y_i + b_i`. -/
def score (n : ℕ) (θ : RankFactors) (u i : ℕ) : ℝ :=
  (∑ j ∈ Finset.range n, θ.user u j * θ.item i j) + θ.bias i

/-- How much higher `i` is ranked than `j`. -/
def lead (n : ℕ) (θ : RankFactors) (u i j : ℕ) : ℝ := θ.score n u i - θ.score n u j

/-- `Σ a b` over the coordinates of the parameters of the triple `(u, i, j)`, squared. -/
def size (n : ℕ) (θ : RankFactors) (u i j : ℕ) : ℝ :=
  (∑ k ∈ Finset.range n, (θ.user u k * θ.user u k + θ.item i k * θ.item i k +
    θ.item j k * θ.item j k)) + θ.bias i * θ.bias i + θ.bias j * θ.bias j

/-- Moving along a direction. -/
def move (θ d : RankFactors) (τ : ℝ) : RankFactors where
  user := fun u j => θ.user u j + τ * d.user u j
  item := fun i j => θ.item i j + τ * d.item i j
  bias := fun i => θ.bias i + τ * d.bias i

/-- Inner product over `users` users and `items` items. -/
def inner (users items n : ℕ) (a b : RankFactors) : ℝ :=
  (∑ u ∈ Finset.range users, ∑ j ∈ Finset.range n, a.user u j * b.user u j) +
    (∑ i ∈ Finset.range items, ∑ j ∈ Finset.range n, a.item i j * b.item i j) +
    ∑ i ∈ Finset.range items, a.bias i * b.bias i

end RankFactors

/-- How many pairs of stored entries make `(u, i, j)`: an entry `(u, i)` and an entry of column `j`.  With
`avoid`, columns stored in row `u` do not count as `j`. -/
def pairsOf (avoid : Bool) (matrix : List (List ℕ)) (u i j : ℕ) : ℕ :=
  if avoid = true ∧ 0 < storedIn matrix u j then 0 else storedIn matrix u i * popularity matrix j

/-- The mean of `ln σ(x_ui - x_uj) - λ/2 |Θ_uij|²` over all pairs of stored entries, pairs that do not
count contributing zero. -/
def rankingObjective (avoid : Bool) (matrix : List (List ℕ)) (items n : ℕ) (reg : ℝ) (θ : RankFactors) : ℝ :=
  (∑ u ∈ Finset.range matrix.length, ∑ i ∈ Finset.range items, ∑ j ∈ Finset.range items,
    (pairsOf avoid matrix u i j : ℝ) *
      (Real.log (logistic (θ.lead n u i j)) - reg / 2 * θ.size n u i j)) / (nnz matrix : ℝ) ^ 2

/-- `g` is the gradient of `F` at `θ`. -/
def IsRankGradient (users items n : ℕ) (F : RankFactors → ℝ) (θ g : RankFactors) : Prop :=
  ∀ d : RankFactors, HasDerivAt (fun τ => F (θ.move d τ)) (g.inner users items n d) 0

/-- The arithmetic mean of `f` over a list. -/
def mean {A : Type} (l : List A) (f : A → ℝ) : ℝ := (l.map f).sum / (l.length : ℝ)

/-- An upper bound on the curvature of the LMF objective of a row. -/
def lmfCurvature {f : ℕ} (reg : ℝ) (pos : List ((Fin f → ℝ) × ℝ)) (neg : List (Fin f → ℝ)) : ℝ :=
  ((pos.map fun e => e.2 * ∑ j, e.1 j * e.1 j).sum + (neg.map fun y => ∑ j, y j * y j).sum) / 4 + reg

end

end Implicit.Spec
