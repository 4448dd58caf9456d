import Verif.Model.RoundCG
/-!
# Conjugate gradients in floating point: the CUDA kernel and the python solver

`least_squares_cg_kernel` (`implicit/gpu/als.cu:23-111`, single precision factors) and `least_squares_cg`
(`implicit/cpu/als.py:527-568`) write the same formulas; they differ in the order of sums, in the matrix they read and in the treatment
of rows without entries.  A negation is exact.  `a - b * c` is `axpy (-b) c a`, fused or not.  Overflow, underflow and NaN are not
included.
-/

namespace Implicit

variable {f : Nat}

/-- Inner products, and products of the regularised Gram matrix and its negative with a vector. -/
structure CgProducts (f : Nat) where
  dot : Vec f ℝ → Vec f ℝ → ℝ
  times : Vec f ℝ → Vec f ℝ
  timesNeg : Vec f ℝ → Vec f ℝ

/-- Each product and each addition has a relative error of at most `u`, and sums are taken in any order; `H` is the matrix. -/
structure CgProducts.Accurate (Q : CgProducts f) (u : ℝ) (H : Mat f ℝ) : Prop where
  dot : ∀ x y, |Q.dot x y - Implicit.dot x y| ≤ ((1 + u) ^ (f + 1) - 1) * ∑ i, |x i| * |y i|
  times : ∀ x a, |Q.times x a - mulVec H x a| ≤ ((1 + u) ^ (f + 1) - 1) * ∑ b, |H a b| * |x b|
  timesNeg : ∀ x a, |Q.timesNeg x a - -mulVec H x a| ≤ ((1 + u) ^ (f + 1) - 1) * ∑ b, |H a b| * |x b|

section
variable (A : FloatOps ℝ) (Q : CgProducts f)

/-- The initial residual (`implicit/gpu/als.cu:50-64`, `implicit/cpu/als.py:536-542`). -/
noncomputable def denseCgResidual (es : List (Vec f ℝ × ℝ)) (x : Vec f ℝ) : Vec f ℝ :=
  es.foldl (fun r e =>
      if A.lt A.zero e.2 then A.axpyVec (A.axpy (-A.sub e.2 A.one) (Q.dot e.1 x) e.2) e.1 r
      else A.axpyVec (A.mul (-A.sub (-e.2) A.one) (Q.dot e.1 x)) e.1 r)
    (Q.timesNeg x)

/-- `Ap` (`implicit/gpu/als.cu:74-85`, `implicit/cpu/als.py:551-556`). -/
noncomputable def denseCgApply (es : List (Vec f ℝ × ℝ)) (p : Vec f ℝ) : Vec f ℝ :=
  es.foldl (fun v e => A.axpyVec (A.mul (A.sub (if A.lt e.2 A.zero then -e.2 else e.2) A.one) (Q.dot e.1 p)) e.1 v) (Q.times p)

/-- One round (`implicit/gpu/als.cu:74-97`, `implicit/cpu/als.py:551-566`). -/
noncomputable def denseCgStep (es : List (Vec f ℝ × ℝ)) (s : CG f ℝ) : CG f ℝ :=
  let Ap := denseCgApply A Q es s.p
  let alpha := A.div s.rsold (Q.dot s.p Ap)
  let x := A.axpyVec alpha s.p s.x
  let r := A.axpyVec (-alpha) Ap s.r
  let rsnew := Q.dot r r
  ⟨x, r, A.axpyVec (A.div rsnew s.rsold) s.p r, rsnew⟩

/-- The rounds (`implicit/gpu/als.cu:72-99`, `implicit/cpu/als.py:549-566`). -/
noncomputable def denseCgLoop (es : List (Vec f ℝ × ℝ)) (tol : ℝ) : Nat → CG f ℝ → CgEnd f
  | 0, s => ⟨s.x, s.r, false⟩
  | n + 1, s =>
    let s' := denseCgStep A Q es s
    if A.lt s'.rsold tol then ⟨s'.x, s'.r, true⟩ else denseCgLoop es tol n s'

/-- One row with its entries (`implicit/gpu/als.cu:49-109`, `implicit/cpu/als.py:533-568`). -/
noncomputable def denseCgSolve (tol : ℝ) (steps : Nat) (es : List (Vec f ℝ × ℝ)) (x : Vec f ℝ) : CgEnd f :=
  let r := denseCgResidual A Q es x
  let rsold := Q.dot r r
  if A.lt rsold tol then ⟨x, r, true⟩ else denseCgLoop A Q es tol steps ⟨x, r, r, rsold⟩

end

/-! ## The kernel -/

/-- `l2_regularize_kernel` (`implicit/gpu/als.cu:113-116`): the diagonal only. -/
noncomputable def gpuRegularised (A : FloatOps ℝ) (G : Mat f ℝ) (reg : ℝ) : Mat f ℝ :=
  fun a b => if a = b then A.add (G a b) reg else G a b

/-- The products of the kernel: `D` is `dot` of a thread block (`implicit/gpu/dot.cuh:27-59`); thread `a` adds up column `a` of the matrix
(`implicit/gpu/als.cu:51-53,75-77`). -/
noncomputable def gpuCgProducts (A : FloatOps ℝ) (D : Vec f ℝ → Vec f ℝ → ℝ) (G : Mat f ℝ) : CgProducts f where
  dot := D
  times x := fun a => (List.finRange f).foldl (fun s i => A.axpy (x i) (G i a) s) A.zero
  timesNeg x := fun a => (List.finRange f).foldl (fun s i => A.axpy (-x i) (G i a) s) A.zero

/-- One row of the kernel (`implicit/gpu/als.cu:39-109`), with the Gram matrix by `cublasSgemm`, each entry summed in its own order
(`implicit/gpu/als.cu:122-152`). -/
noncomputable def roundGpuRow (A : FloatOps ℝ) (D : Vec f ℝ → Vec f ℝ → ℝ) (r : Rounding ℝ) (tol : ℝ) (steps : Nat) (Y : List (Vec f ℝ))
    (order : Fin f → Fin f → SumTree Y.length) (reg : ℝ) (row : List (Nat × ℝ)) (x : Vec f ℝ) : Except Err (CgEnd f) :=
  if row.isEmpty then .ok ⟨fun _ => A.zero, fun _ => A.zero, true⟩
  else do
    let es ← rowEntries .undefinedBehaviour Y row
    pure (denseCgSolve A (gpuCgProducts A D (gpuRegularised A (roundGram r Y order) reg)) tol steps es x)

/-- `recalculate_user` and `recalculate_item` of the GPU model (`implicit/gpu/als.py:181-204`): from zero, as many rounds as factors. -/
noncomputable def roundGpuRecalculate (A : FloatOps ℝ) (D : Vec f ℝ → Vec f ℝ → ℝ) (r : Rounding ℝ) (tol : ℝ) (Y : List (Vec f ℝ))
    (order : Fin f → Fin f → SumTree Y.length) (reg : ℝ) (row : List (Nat × ℝ)) : Except Err (CgEnd f) :=
  roundGpuRow A D r tol f Y order reg row fun _ => A.zero

/-! ## The python solver -/

/-- The products of the python solver: `dot` in any order `t`, row `a` of the matrix in the order `rows a`. -/
noncomputable def pyCgProducts (r : Rounding ℝ) (t : SumTree f) (rows : Fin f → SumTree f) (G : Mat f ℝ) : CgProducts f where
  dot := fun x y => t.eval r x y
  times x := fun a => (rows a).eval r (G a) x
  timesNeg x := fun a => -(rows a).eval r (G a) x

/-- One row of the python `least_squares_cg` (`implicit/cpu/als.py:527-568`); rows without entries are not special. -/
noncomputable def roundPyCgRow (A : FloatOps ℝ) (r : Rounding ℝ) (t : SumTree f) (rows : Fin f → SumTree f) (tol : ℝ) (steps : Nat)
    (Y : List (Vec f ℝ)) (order : Fin f → Fin f → SumTree Y.length) (reg : ℝ) (row : List (Nat × ℝ)) (x : Vec f ℝ) :
    Except Err (CgEnd f) := do
  let es ← rowEntries .indexError Y row
  pure (denseCgSolve A (pyCgProducts r t rows (A.regularised (roundGram r Y order) reg)) tol steps es x)

end Implicit
