import Verif.Props.C13
import Verif.Props.C90
/-!
# C90 — training with the direct solver in floating point
-/

set_option linter.unusedSectionVars false

namespace Implicit

open Spec (ValidRow)

variable {f : Nat}

theorem sum_le_error {n n' : Nat} (h : n' = n) (a : Fin n → ℝ) (b e : Fin n' → ℝ)
    (hle : ∀ (i : Nat) (h1 : i < n) (h2 : i < n'), b ⟨i, h2⟩ ≤ a ⟨i, h1⟩ + e ⟨i, h2⟩) : ∑ i, b i ≤ ∑ i, a i + ∑ i, e i := by
  subst h
  rw [← Finset.sum_add_distrib]
  exact Finset.sum_le_sum fun i _ => hle i.1 i.2 i.2

section
variable {A : FloatOps ℝ} {u : ℝ} (hA : A.Accurate u) (r : Rounding ℝ) (hr : r.u = u) (h0 : r.η = 0) {κ : ℝ}
  {posv : Mat f ℝ → Vec f ℝ → Option (Vec f ℝ)} (hp : StableSolver κ posv) {reg : ℝ} (hreg : 0 < reg) (C : SpRows ℝ)
  (X Y : List (Vec f ℝ))

include hA hr h0 hp hreg

/-- The rows of a sweep. -/
theorem roundLeastSquares_rows (order : Fin f → Fin f → SumTree Y.length) {X' : List (Vec f ℝ)}
    (hX : roundLeastSquares A r posv C X Y order reg = .ok X') :
    X'.length = X.length ∧ ∀ (i : Nat) (h : i < X'.length), roundLeastSquaresRow A r posv Y order reg (C[i]?.getD []) = .ok X'[i] := by
  obtain ⟨hl, hget⟩ := mapM_ok_iff hX
  rw [List.length_range] at hl
  refine ⟨hl, fun i h => ?_⟩
  obtain ⟨x, hx, hi⟩ := hget i i (by rw [List.getElem?_range (by omega)])
  rw [List.getElem?_eq_getElem h] at hi
  injection hi with hi
  cases hc : C[i]? with
  | none => rw [hc] at hx; cases hx
  | some row =>
    rw [hc] at hx
    rw [hi]
    exact hx

/-- **C90** (user sweep).  Half an iteration in floating point: whatever the factors were, the objective does not grow by more than
the stated error. -/
theorem C90_users (order : Fin f → Fin f → SumTree Y.length) (ho : ∀ a b, (order a b).Complete)
    (hv : ∀ row ∈ C, ValidRow Y.length row) {X' : List (Vec f ℝ)} (hX : roundLeastSquares A r posv C X Y order reg = .ok X') :
    Spec.objective C X' Y reg ≤ Spec.objective C X Y reg + Spec.sweepError u κ Y C reg X' := by
  obtain ⟨hl, hrows⟩ := roundLeastSquares_rows hA r hr h0 hp hreg C X Y order hX
  rw [objective_users, objective_users C X]
  have := sum_le_error hl (fun i => Spec.rowLoss Y (C[i.1]?.getD []) reg X[i])
    (fun i => Spec.rowLoss Y (C[i.1]?.getD []) reg X'[i])
    (fun i => Spec.rowResidual u κ Y (C[i.1]?.getD []) reg X'[i] ^ 2 / reg) (by
      intro i h1 h2
      have hrow : ValidRow Y.length (C[i]?.getD []) := by
        cases hc : C[i]? with
        | none => exact ⟨by simp, by simp⟩
        | some row => exact hv row (List.mem_of_getElem? hc)
      exact C90_loss hA r hr h0 hp Y order ho hreg _ hrow (hrows i h2) X[i])
  unfold Spec.sweepError
  linarith

/-- **C90** (item sweep). -/
theorem C90_items (order : Fin f → Fin f → SumTree X.length) (ho : ∀ a b, (order a b).Complete) (hC : C.length = X.length)
    (hv : ∀ row ∈ C, ValidRow Y.length row) {Y' : List (Vec f ℝ)}
    (hY : roundLeastSquares A r posv (transposeRows Y.length C) Y X order reg = .ok Y') :
    Spec.objective C X Y' reg ≤ Spec.objective C X Y reg + Spec.sweepError u κ X (transposeRows Y.length C) reg Y' := by
  obtain ⟨hl, hrows⟩ := roundLeastSquares_rows hA r hr h0 hp hreg (transposeRows Y.length C) Y X order hY
  have hv' := transpose_valid hv
  rw [hC] at hv'
  have hvY' : ∀ row ∈ C, ValidRow Y'.length row := by rw [hl]; exact hv
  rw [objective_items C X Y' reg Y.length hl.symm hvY', objective_items C X Y reg _ rfl hv]
  have := sum_le_error hl (fun i => Spec.rowLoss X ((transposeRows Y.length C)[i.1]?.getD []) reg Y[i])
    (fun i => Spec.rowLoss X ((transposeRows Y.length C)[i.1]?.getD []) reg Y'[i])
    (fun i => Spec.rowResidual u κ X ((transposeRows Y.length C)[i.1]?.getD []) reg Y'[i] ^ 2 / reg) (by
      intro i h1 h2
      have hrow : ValidRow X.length ((transposeRows Y.length C)[i]?.getD []) := by
        cases hc : (transposeRows Y.length C)[i]? with
        | none => exact ⟨by simp, by simp⟩
        | some row => exact hv' row (List.mem_of_getElem? hc)
      exact C90_loss hA r hr h0 hp X order ho hreg _ hrow (hrows i h2) Y[i])
  unfold Spec.sweepError
  linarith

/-- **C90** (iteration).  One iteration of `fit` with the direct solver. -/
theorem C90_iteration (hC : C.length = X.length) (hv : ∀ row ∈ C, ValidRow Y.length row)
    (order : Fin f → Fin f → SumTree Y.length) (ho : ∀ a b, (order a b).Complete) {X' : List (Vec f ℝ)}
    (hX : roundLeastSquares A r posv C X Y order reg = .ok X')
    (order' : Fin f → Fin f → SumTree X'.length) (ho' : ∀ a b, (order' a b).Complete) {Y' : List (Vec f ℝ)}
    (hY : roundLeastSquares A r posv (transposeRows Y.length C) Y X' order' reg = .ok Y') :
    Spec.objective C X' Y' reg ≤
      Spec.objective C X Y reg + Spec.sweepError u κ Y C reg X' + Spec.sweepError u κ X' (transposeRows Y.length C) reg Y' := by
  have hl := (roundLeastSquares_rows hA r hr h0 hp hreg C X Y order hX).1
  have h1 := C90_users hA r hr h0 hp hreg C X Y order ho hv hX
  have h2 := C90_items hA r hr h0 hp hreg C X' Y order' ho' (by omega) hv hY
  linarith

end

/-- One user (that of `round_row_example`) starting from the factor `5`, in single precision. -/
example : ∃ X', roundLeastSquares (roundOps (freeFloat 24) true) (freeFloat 24) (triangleSolver 1) [[(0, 3), (1, -2)]] [fun _ => 5]
      [fun _ => 1, fun _ => 2] (fun _ _ => .add (.leaf 1) (.leaf 0)) 1 = .ok X' ∧
    Spec.objective [[(0, 3), (1, -2)]] X' [fun _ => 1, fun _ => 2] 1 ≤
      Spec.objective (f := 1) [[(0, 3), (1, -2)]] [fun _ => 5] [fun _ => 1, fun _ => 2] 1 +
        Spec.sweepError (2 ^ (-(24 : Nat) : Int)) 0 [fun _ => 1, fun _ => 2] [[(0, 3), (1, -2)]] 1 X' := by
  obtain ⟨x, hx, -⟩ := round_row_example
  have h : roundLeastSquares (roundOps (freeFloat 24) true) (freeFloat 24) (triangleSolver 1) [[(0, 3), (1, -2)]] [fun _ => 5]
      [fun _ => 1, fun _ => 2] (fun _ _ => .add (.leaf 1) (.leaf 0)) 1 = .ok [x] := by
    unfold roundLeastSquares
    simp [List.range_succ, hx]
  exact ⟨[x], h, C90_users (roundOps_accurate (freeFloat 24) rfl true) (freeFloat 24) rfl rfl (triangleSolver_stable 1) one_pos _ _ _ _
    (fun _ _ => by unfold SumTree.Complete; decide) (by simp; exact ⟨by simp, by simp⟩) h⟩

end Implicit
