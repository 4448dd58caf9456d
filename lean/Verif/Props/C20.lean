import Verif.Model.GpuALS
import Verif.Props.C19

/-!
# C20 — `alpha` is exactly a rescaling of the confidences

`rescale a C` is the data with every stored value multiplied by `a`.
-/

set_option linter.unusedSectionVars false

namespace Implicit

variable {R : Type} [LinearOrder R] [Field R] {f : Nat}

/-- Every stored value multiplied by `a`. -/
def Spec.rescale (a : R) (C : List (List (Nat × R))) : List (List (Nat × R)) :=
  C.map fun row => row.map fun e => (e.1, a * e.2)

theorem applyAlpha_rescale (a : R) (C : SpRows R) :
    applyAlpha a C = applyAlpha 1 (Spec.rescale a C) := by
  apply List.ext_getElem?
  intro k
  rw [applyAlpha_getElem?, applyAlpha_getElem?]
  unfold Spec.rescale
  rw [List.getElem?_map]
  cases C[k]? <;> simp

/-- **C20** (CPU training).  Every solver, any number of iterations, any starting point. -/
theorem C20_cpu_fit_partial (S : Solver f R) (tol : R) (p : ALSParams R) (cols : Nat) (C : SpRows R)
    (init : Factors f R) :
    alsFit S tol p cols C init = alsFit S tol { p with alpha := 1 } cols (Spec.rescale p.alpha C) init := by
  unfold alsFit
  rw [applyAlpha_rescale]
  rfl

/-- Replace `alpha` by 1. -/
def Env.unit (env : Env f R) : Env f R := { env with p := { env.p with alpha := 1 } }

/-- **C20** (CPU training, with callbacks and caches).  One epoch of training as part of `fitModel`. -/
theorem C20_cpu_epoch (env : Env f R) (cols : Nat) (C : SpRows R) :
    alsTrain env cols C = alsTrain env.unit cols (Spec.rescale env.p.alpha C) := by
  unfold alsTrain
  rw [applyAlpha_rescale]
  rfl

/-- **C20** (recalculating on the CPU). -/
theorem C20_cpu_recalculate (env : Env f R) (st : MFState f R) (ids : Ids) (rows : SpRows R) :
    recalculateUser env st ids rows =
        recalculateUser env.unit st ids (Spec.rescale env.p.alpha rows) ∧
      recalculateItem env st ids rows =
        recalculateItem env.unit st ids (Spec.rescale env.p.alpha rows) := by
  constructor
  · unfold recalculateUser
    rw [applyAlpha_rescale]
    simp only [Spec.rescale, List.length_map]
    rfl
  · unfold recalculateItem
    rw [applyAlpha_rescale]
    rfl

/-- **C20** (`partial_fit` on the CPU). -/
theorem C20_cpu_partial_fit (env : Env f R) (st : MFState f R) (ids : List Nat) (rows : SpRows R) :
    partialFitUsers env st ids rows =
        partialFitUsers env.unit st ids (Spec.rescale env.p.alpha rows) ∧
      partialFitItems env st ids rows =
        partialFitItems env.unit st ids (Spec.rescale env.p.alpha rows) := by
  constructor
  · unfold partialFitUsers
    rw [(C20_cpu_recalculate env st (.many ids) rows).1]
    simp only [Spec.rescale, List.length_map]
  · unfold partialFitItems
    rw [(C20_cpu_recalculate env st (.many ids) rows).2]
    simp only [Spec.rescale, List.length_map]

/-- **C20** (explaining). -/
theorem C20_cpu_explain (env : Env f R) (st : MFState f R) (userid : Nat) (rows : SpRows R)
    (itemid : Nat) (weights : Option (Mat f R)) (N : Nat) :
    explain env st userid rows itemid weights N =
      explain env.unit st userid (Spec.rescale env.p.alpha rows) itemid weights N := by
  unfold explain
  rw [applyAlpha_rescale]
  rfl

/-- **C20** (recalculating on the GPU). -/
theorem C20_gpu_recalculate (tol : R) (p : GpuALSParams R) (G : Mat f R) (Y : List (Vec f R))
    (users cols : Nat) (rows : SpRows R) :
    gpuRecalculateUser tol p G Y users cols rows =
      gpuRecalculateUser tol { p with alpha := 1 } G Y users cols (Spec.rescale p.alpha rows) := by
  unfold gpuRecalculateUser
  rw [applyAlpha_rescale]

/-- Parameters of the counter-example: regularisation 1, `alpha = 2`, one iteration. -/
def c20Params : GpuALSParams Rat := ⟨1, 2, 3, 1⟩

/-- **C20 is violated** by GPU training, which ignores `alpha`: one user, one item, one rating of 1. -/
theorem C20_gpu_violated :
    ((gpuAlsFit (f := 1) (1 / 10 ^ 20) c20Params 1 [[(0, 1)]] ⟨[![1]], [![1]]⟩).map
        fun m => m.user.map fun x => x 0).toOption = some [1 / 2] ∧
    ((gpuAlsFit (f := 1) (1 / 10 ^ 20) { c20Params with alpha := 1 } 1
        (Spec.rescale c20Params.alpha [[(0, 1)]]) ⟨[![1]], [![1]]⟩).map
        fun m => m.user.map fun x => x 0).toOption = some [2 / 3] := by
  constructor <;> decide +kernel

/-- On the GPU the training result does not depend on `alpha` at all. -/
theorem C20_gpu_fit_ignores_alpha (tol a : R) (p : GpuALSParams R) (cols : Nat) (C : SpRows R)
    (init : Factors f R) :
    gpuAlsFit tol p cols C init = gpuAlsFit tol { p with alpha := a } cols C init := by
  unfold gpuAlsFit
  have : ∀ (n : Nat) (m : Factors f R), gpuIterations tol p C.length cols C (transposeRows cols C) n m =
      gpuIterations tol { p with alpha := a } C.length cols C (transposeRows cols C) n m := by
    intro n
    induction n with
    | zero => intro m; rfl
    | succ n ih =>
      intro m
      unfold gpuIterations
      simp only [ih]
      rfl
  exact this _ _

/-- On the CPU the same data and `alpha = 2` give the factor for the doubled confidence. -/
example :
    ((alsFit (scalarSolver Rat) (1 / 10 ^ 20) ⟨1, 2, true, false, 3, 1⟩ 1 [[(0, 1)]]
        ⟨[![1]], [![1]]⟩).map fun m => m.user.map fun x => x 0).toOption = some [2 / 3] := by
  decide +kernel

end Implicit
