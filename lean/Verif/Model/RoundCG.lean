import Verif.Model.RoundALS
/-!
# Conjugate gradients in floating point

`_least_squares_cg` (`implicit/cpu/_als.pyx:152-248`) on real numbers with rounded operations.  Inner products and products with the
Gram matrix are BLAS calls, which may sum in any order.  Overflow, underflow and NaN are not included (for NaN see
`Verif.Model.FloatTraining`); nothing at all is assumed of divisions.
-/

namespace Implicit

variable {f : Nat}

/-- BLAS: `dot`, and `symv` with the factors `1.0` and `-1.0` (`implicit/cpu/_als.pyx:187-188,211-212`). -/
structure BlasProducts (f : Nat) where
  dot : Vec f ℝ → Vec f ℝ → ℝ
  symv : Mat f ℝ → Vec f ℝ → Vec f ℝ
  symvNeg : Mat f ℝ → Vec f ℝ → Vec f ℝ

/-- Each product and each addition has a relative error of at most `u`, and sums are taken in any order.  `symv(b"U", …)` reads one
triangle only, as `posv` does (`lowerPart`). -/
structure BlasProducts.Accurate (P : BlasProducts f) (u : ℝ) : Prop where
  dot : ∀ x y, |P.dot x y - Implicit.dot x y| ≤ ((1 + u) ^ (f + 1) - 1) * ∑ i, |x i| * |y i|
  symv : ∀ G x a, |P.symv G x a - mulVec (lowerPart G) x a| ≤ ((1 + u) ^ (f + 1) - 1) * ∑ b, |lowerPart G a b| * |x b|
  symvNeg : ∀ G x a, |P.symvNeg G x a - -mulVec (lowerPart G) x a| ≤ ((1 + u) ^ (f + 3) - 1) * ∑ b, |lowerPart G a b| * |x b|

/-- Sums from left to right (`Verif.Model.FloatTraining`). -/
noncomputable def FloatOps.products (A : FloatOps ℝ) : BlasProducts f where
  dot := A.dot
  symv G x := A.mulVec (lowerPart G) x
  symvNeg G x := fun a => A.mul A.negOne (A.mulVec (lowerPart G) x a)

section
variable (A : FloatOps ℝ) (P : BlasProducts f)

/-- The initial residual (`implicit/cpu/_als.pyx:186-201`). -/
noncomputable def roundCgResidual (G : Mat f ℝ) (es : List (Vec f ℝ × ℝ)) (x : Vec f ℝ) : Vec f ℝ :=
  es.foldl (fun r e =>
      if A.lt A.zero e.2 then A.axpyVec (A.sub e.2 (A.mul (A.sub e.2 A.one) (P.dot e.1 x))) e.1 r
      else A.axpyVec (A.sub A.zero (A.mul (A.sub (A.mul A.negOne e.2) A.one) (P.dot e.1 x))) e.1 r)
    (P.symvNeg G x)

/-- `Ap` (`implicit/cpu/_als.pyx:210-222`). -/
noncomputable def roundCgApply (G : Mat f ℝ) (es : List (Vec f ℝ × ℝ)) (p : Vec f ℝ) : Vec f ℝ :=
  es.foldl (fun v e =>
      A.axpyVec (A.mul (A.sub (if A.lt e.2 A.zero then A.mul A.negOne e.2 else e.2) A.one) (P.dot e.1 p)) e.1 v)
    (P.symv G p)

/-- One round (`implicit/cpu/_als.pyx:210-244`): `x`, `r`, the next direction, and `rsnew`. -/
noncomputable def roundCgStep (G : Mat f ℝ) (es : List (Vec f ℝ × ℝ)) (s : CG f ℝ) : CG f ℝ :=
  let Ap := roundCgApply A P G es s.p
  let alpha := A.div s.rsold (P.dot s.p Ap)
  let x := A.axpyVec alpha s.p s.x
  let r := A.axpyVec (A.mul alpha A.negOne) Ap s.r
  let rsnew := P.dot r r
  ⟨x, r, A.axpyVec A.one r (fun a => A.mul (A.div rsnew s.rsold) (s.p a)), rsnew⟩

/-- What the solver of one row leaves behind: the factor `x`, the array `r`, and whether a residual below the tolerance ended it
(`implicit/cpu/_als.pyx:205-206,232-233`). -/
structure CgEnd (f : Nat) where
  x : Vec f ℝ
  r : Vec f ℝ
  converged : Bool

/-- The rounds (`implicit/cpu/_als.pyx:208-244`). -/
noncomputable def roundCgLoop (G : Mat f ℝ) (es : List (Vec f ℝ × ℝ)) (tol : ℝ) : Nat → CG f ℝ → CgEnd f
  | 0, s => ⟨s.x, s.r, false⟩
  | n + 1, s =>
    let s' := roundCgStep A P G es s
    if A.lt s'.rsold tol then ⟨s'.x, s'.r, true⟩ else roundCgLoop G es tol n s'

/-- One row with entries (`implicit/cpu/_als.pyx:186-244`). -/
noncomputable def roundCgSolve (G : Mat f ℝ) (tol : ℝ) (steps : Nat) (es : List (Vec f ℝ × ℝ)) (x : Vec f ℝ) : CgEnd f :=
  let r := roundCgResidual A P G es x
  let rsold := P.dot r r
  if A.lt rsold tol then ⟨x, r, true⟩ else roundCgLoop A P G es tol steps ⟨x, r, r, rsold⟩

/-- One row (`implicit/cpu/_als.pyx:177-244`) of `least_squares_cg`, with the Gram matrix of line 164; a row without entries becomes
zero. -/
noncomputable def roundCgRow (r : Rounding ℝ) (tol : ℝ) (steps : Nat) (Y : List (Vec f ℝ)) (order : Fin f → Fin f → SumTree Y.length)
    (reg : ℝ) (row : List (Nat × ℝ)) (x : Vec f ℝ) : Except Err (CgEnd f) :=
  if row.isEmpty then .ok ⟨fun _ => A.zero, fun _ => A.zero, true⟩
  else do
    let es ← rowEntries .undefinedBehaviour Y row
    pure (roundCgSolve A P (A.regularised (roundGram r Y order) reg) tol steps es x)

/-- `least_squares_cg` (`implicit/cpu/_als.pyx:145-248`), one half of an iteration of `fit`. -/
noncomputable def roundLeastSquaresCG (r : Rounding ℝ) (tol : ℝ) (steps : Nat) (C : SpRows ℝ) (X Y : List (Vec f ℝ))
    (order : Fin f → Fin f → SumTree Y.length) (reg : ℝ) : Except Err (List (CgEnd f)) :=
  X.zipIdx.mapM fun xu =>
    match C[xu.2]? with
    | none => .error .undefinedBehaviour
    | some row => roundCgRow A P r tol steps Y order reg row xu.1

end

end Implicit
