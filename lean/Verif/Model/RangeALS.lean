import Verif.Model.Extended
import Verif.Model.FitCheck
import Verif.Model.Overflow
import Verif.Model.RoundALS
/-!
# ALS with the direct solver, with rounding and overflow

`implicit/cpu/_als.pyx:67-142` and the iterations of `fit` on numbers of bounded size: `none` is an infinity or NaN.
-/

namespace Implicit

variable {f : Nat}

/-- `limitOps`, with or without fused multiply-add in `axpy`. -/
noncomputable def rangeOps (r : Rounding ℝ) (fused : Bool) (Ω : ℝ) : FloatOps (Option ℝ) where
  __ := limitOps r Ω
  axpy t y z := if fused then do limit r Ω ((← z) + (← t) * (← y)) else do limit r Ω ((← z) + (← limit r Ω ((← t) * (← y))))

/-- A sum of products in a given order, `none` if anything overflows on the way. -/
noncomputable def SumTree.rangeEval (r : Rounding ℝ) (Ω : ℝ) (x y : Vec f (Option ℝ)) : SumTree f → Option ℝ
  | .leaf i => do limit r Ω ((← x i) * (← y i))
  | .add l m => do limit r Ω ((← l.rangeEval r Ω x y) + (← m.rangeEval r Ω x y))
  | .fma i t => do limit r Ω ((← x i) * (← y i) + (← t.rangeEval r Ω x y))

/-- An order of summation for every entry of a Gram matrix and every number of factors (there is none of no numbers). -/
abbrev GramOrder (f : Nat) := (n : Nat) → 0 < n → Fin f → Fin f → SumTree n

/-- `Y.T.dot(Y)` (`implicit/cpu/_als.pyx:70`). -/
noncomputable def rangeGram (r : Rounding ℝ) (Ω : ℝ) (order : GramOrder f) (Y : List (Vec f (Option ℝ))) : Mat f (Option ℝ) :=
  fun a b => if h : 0 < Y.length then (order _ h a b).rangeEval r Ω (fun i => Y[i] a) (fun i => Y[i] b) else some 0

/-- A vector of finite numbers. -/
def known (x : Vec f ℝ) : Vec f (Option ℝ) := fun a => some (x a)

/-- What is assumed of LAPACK's `posv` with overflow: on systems with entries up to `P` whose matrix is at least `lam` it agrees with
a stable solver `p`.  (The entries of a Cholesky factor are at most `√P`, its diagonal is at least about `√lam`, so that all numbers in
both substitutions are at most about `√(P f / lam)` times the length of the right-hand side, up to one more factor `1 / √lam`.)
What it does with other systems is left open. -/
structure RangeSolver (κ P lam : ℝ) (posv : Mat f (Option ℝ) → Vec f (Option ℝ) → Option (Vec f (Option ℝ)))
    (p : Mat f ℝ → Vec f ℝ → Option (Vec f ℝ)) : Prop where
  stable : StableSolver κ p
  agrees : ∀ A b, (∀ a c, |A a c| ≤ P) → (∀ a, |b a| ≤ P) → (∀ x, lam * dot x x ≤ dot x (mulVec (lowerPart A) x)) →
    posv (fun a => known (A a)) (known b) = (p A b).map known

/-- One row of `_least_squares` (`implicit/cpu/_als.pyx:75-142`); also `recalculate_user`, `recalculate_item` and `partial_fit_*`. -/
noncomputable def rangeLeastSquaresRow (r : Rounding ℝ) (fused : Bool) (Ω : ℝ)
    (posv : Mat f (Option ℝ) → Vec f (Option ℝ) → Option (Vec f (Option ℝ))) (order : GramOrder f) (Y : List (Vec f (Option ℝ))) (reg : ℝ)
    (row : List (Nat × ℝ)) : Except Err (Vec f (Option ℝ)) :=
  (rangeOps r fused Ω).leastSquaresRow posv (rangeGram r Ω order Y) Y (some reg) (row.map fun e => (e.1, some e.2))

/-- `least_squares` (`implicit/cpu/_als.pyx:67-142`), one half of an iteration of `fit` without conjugate gradients.  The old factors `X` are
overwritten; only their number matters. -/
noncomputable def rangeLeastSquares (r : Rounding ℝ) (fused : Bool) (Ω : ℝ)
    (posv : Mat f (Option ℝ) → Vec f (Option ℝ) → Option (Vec f (Option ℝ))) (order : GramOrder f)
    (C : SpRows ℝ) (X Y : List (Vec f (Option ℝ))) (reg : ℝ) : Except Err (List (Vec f (Option ℝ))) :=
  (List.range X.length).mapM fun u =>
    match C[u]? with
    | none => .error .undefinedBehaviour
    | some row => rangeLeastSquaresRow r fused Ω posv order Y reg row

/-- `fit` of CPU ALS with `use_cg=False` from the factors `init` (`implicit/cpu/als.py:148-201`): iterations and the check for NaN.  `order i`
is the order of summation of the Gram matrices in half iteration `i`. -/
noncomputable def rangeAlsFit (r : Rounding ℝ) (fused : Bool) (Ω : ℝ)
    (posv : Mat f (Option ℝ) → Vec f (Option ℝ) → Option (Vec f (Option ℝ))) (order : Nat → GramOrder f)
    (cols : Nat) (C : SpRows ℝ) (reg : ℝ) (iterations : Nat) (init : Factors f (Option ℝ)) : Except Err (Factors f (Option ℝ)) :=
  cpuFit Option.isNone (fun i m => do
      let X ← rangeLeastSquares r fused Ω posv (order (2 * i)) C m.user m.item reg
      let Y ← rangeLeastSquares r fused Ω posv (order (2 * i + 1)) (transposeRows cols C) m.item X reg
      pure ⟨X, Y⟩) iterations init

end Implicit
