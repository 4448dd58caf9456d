import Mathlib.Analysis.SpecialFunctions.Log.Deriv
import Mathlib.Analysis.SpecialFunctions.ExpDeriv
/-!
# Objectives of BPR and LMF

Over the reals.  The logistic function is `logistic x = 1 / (1 + exp (-x))`.
-/

namespace Implicit.Spec

noncomputable section

/-- The logistic function. -/
def logistic (x : ℝ) : ℝ := 1 / (1 + Real.exp (-x))

/-- The parameters one BPR sample trains: user factors, factors and bias of the liked and of the
disliked item (coordinates `0..n-1`). -/
structure BprParams where
  user : ℕ → ℝ
  liked : ℕ → ℝ
  disliked : ℕ → ℝ
  likedBias : ℝ
  dislikedBias : ℝ

/-- Moving along a direction. -/
def BprParams.move (p d : BprParams) (τ : ℝ) : BprParams where
  user := fun j => p.user j + τ * d.user j
  liked := fun j => p.liked j + τ * d.liked j
  disliked := fun j => p.disliked j + τ * d.disliked j
  likedBias := p.likedBias + τ * d.likedBias
  dislikedBias := p.dislikedBias + τ * d.dislikedBias

/-- Inner product of `n`-factor parameters. -/
def BprParams.inner (n : ℕ) (p q : BprParams) : ℝ :=
  (∑ j ∈ Finset.range n, (p.user j * q.user j + p.liked j * q.liked j + p.disliked j * q.disliked j)) +
    p.likedBias * q.likedBias + p.dislikedBias * q.dislikedBias

/-- `x_ui - x_uj`. -/
def BprParams.margin (n : ℕ) (p : BprParams) : ℝ :=
  (∑ j ∈ Finset.range n, p.user j * (p.liked j - p.disliked j)) + (p.likedBias - p.dislikedBias)

/-- `ln σ(x_ui - x_uj) - λ/2 |Θ|²`, what a BPR sample is supposed to increase. -/
def bprObjective (n : ℕ) (reg : ℝ) (p : BprParams) : ℝ :=
  Real.log (logistic (p.margin n)) - reg / 2 * p.inner n p

/-- `g` is the gradient of `F` at `p`: all directional derivatives are inner products with it. -/
def IsBprGradient (n : ℕ) (F : BprParams → ℝ) (p g : BprParams) : Prop :=
  ∀ d : BprParams, HasDerivAt (fun τ => F (p.move d τ)) (g.inner n d) 0

/-- The log-likelihood LMF maximises for a row with factors `x`: stored entries `(y, c)` count
`c (x·y) - c ln(1 + exp(x·y))`, sampled negatives `-ln(1 + exp(x·y))`, with the penalty
`λ/2 |x|²`. -/
def lmfObjective {f : ℕ} (reg : ℝ) (pos : List ((Fin f → ℝ) × ℝ)) (neg : List (Fin f → ℝ))
    (x : Fin f → ℝ) : ℝ :=
  (pos.map fun e => e.2 * (∑ j, x j * e.1 j) - e.2 * Real.log (1 + Real.exp (∑ j, x j * e.1 j))).sum -
    (neg.map fun y => Real.log (1 + Real.exp (∑ j, x j * y j))).sum - reg / 2 * ∑ j, x j * x j

/-- `g` is the gradient of `F` at `x`. -/
def IsGradient {f : ℕ} (F : (Fin f → ℝ) → ℝ) (x g : Fin f → ℝ) : Prop :=
  ∀ d : Fin f → ℝ, HasDerivAt (fun τ : ℝ => F fun j => x j + τ * d j) (∑ j, g j * d j) 0

end

end Implicit.Spec
