import Verif.Props.C13
import Verif.Spec.Settle
/-!
# Strong convexity of the row problems
-/

namespace Implicit

variable {R : Type} [LinearOrder R] [Field R] [IsStrictOrderedRing R] {f : Nat}

open Spec (ValidRow)

theorem confidence_nonneg (row : List (Nat × R)) (i : Nat) : 0 ≤ Spec.confidence row i := by
  unfold Spec.confidence
  split
  · exact zero_le_one
  · exact abs_nonneg _

theorem residual_short (Y : List (Vec f R)) (row : List (Nat × R)) (reg : R) (x : Vec f R) (a : Fin f) :
    Spec.residual Y row reg x a = (∑ i : Fin Y.length, Spec.confidence row i *
      (Spec.preference row i - ∑ j, x j * Y[i] j) * Y[i] a) - reg * x a := by
  unfold Spec.residual
  rw [← sub_sub, ← Finset.sum_sub_distrib]
  congr 1
  exact Finset.sum_congr rfl fun i _ => by ring

/-- The loss of `z` around any `x`. -/
theorem rowLoss_expand (Y : List (Vec f R)) (row : List (Nat × R)) (reg : R) (x z : Vec f R) :
    Spec.rowLoss Y row reg z = Spec.rowLoss Y row reg x -
      2 * (∑ a, (z a - x a) * Spec.residual Y row reg x a) +
      (∑ i : Fin Y.length, Spec.confidence row i * (∑ j, (z j - x j) * Y[i] j) ^ 2) +
      reg * ∑ j, (z j - x j) ^ 2 := by
  have hres : ∑ a, (z a - x a) * Spec.residual Y row reg x a =
      (∑ i : Fin Y.length, Spec.confidence row i * (Spec.preference row i - ∑ j, x j * Y[i] j) *
        ∑ a, (z a - x a) * Y[i] a) - reg * ∑ a, (z a - x a) * x a := by
    simp only [residual_short, mul_sub, Finset.sum_sub_distrib, Finset.mul_sum]
    rw [Finset.sum_comm]
    congr 1
    · exact Finset.sum_congr rfl fun i _ => Finset.sum_congr rfl fun a _ => by ring
    · exact Finset.sum_congr rfl fun a _ => by ring
  have hfit : (∑ i : Fin Y.length,
      Spec.confidence row i * (Spec.preference row i - ∑ j, z j * Y[i] j) ^ 2) =
      (∑ i : Fin Y.length,
        Spec.confidence row i * (Spec.preference row i - ∑ j, x j * Y[i] j) ^ 2) -
      2 * (∑ i : Fin Y.length, Spec.confidence row i * (Spec.preference row i - ∑ j, x j * Y[i] j) *
        ∑ a, (z a - x a) * Y[i] a) +
      ∑ i : Fin Y.length, Spec.confidence row i * (∑ j, (z j - x j) * Y[i] j) ^ 2 := by
    rw [Finset.mul_sum, ← Finset.sum_sub_distrib, ← Finset.sum_add_distrib]
    refine Finset.sum_congr rfl fun i _ => ?_
    have e : ∑ j, (z j - x j) * Y[i] j = (∑ j, z j * Y[i] j) - ∑ j, x j * Y[i] j := by
      rw [← Finset.sum_sub_distrib]
      exact Finset.sum_congr rfl fun j _ => by ring
    rw [e]; ring
  have hreg' : ∑ j, z j ^ 2 = (∑ j, x j ^ 2) + 2 * (∑ a, (z a - x a) * x a) + ∑ j, (z j - x j) ^ 2 := by
    rw [Finset.mul_sum, ← Finset.sum_add_distrib, ← Finset.sum_add_distrib]
    exact Finset.sum_congr rfl fun j _ => by ring
  unfold Spec.rowLoss
  rw [hfit, hreg', hres]
  ring

/-- At the solution of the normal equations the loss grows at least like `reg` times the squared
distance. -/
theorem rowLoss_growth (Y : List (Vec f R)) (row : List (Nat × R)) {reg : R} {x : Vec f R}
    (hx : Spec.NormalEquations Y row reg x) (z : Vec f R) :
    Spec.rowLoss Y row reg x + reg * ∑ j, (z j - x j) ^ 2 ≤ Spec.rowLoss Y row reg z := by
  have h0 : ∀ a, Spec.residual Y row reg x a = 0 := by
    intro a
    unfold Spec.residual
    rw [sub_eq_zero]
    exact (hx a).symm
  rw [rowLoss_expand Y row reg x z]
  simp only [h0, mul_zero, Finset.sum_const_zero, sub_zero]
  have : 0 ≤ ∑ i : Fin Y.length, Spec.confidence row i * (∑ j, (z j - x j) * Y[i] j) ^ 2 :=
    Finset.sum_nonneg fun i _ => mul_nonneg (confidence_nonneg _ _) (sq_nonneg _)
  linarith

theorem sqNorm_nonneg (X : List (Vec f R)) : 0 ≤ Spec.sqNorm X := by
  rw [sqNorm_fin]
  exact Finset.sum_nonneg fun _ _ => Finset.sum_nonneg fun _ _ => sq_nonneg _

theorem sqDist_nonneg (X X' : List (Vec f R)) : 0 ≤ Spec.sqDist X X' :=
  Finset.sum_nonneg fun _ _ => Finset.sum_nonneg fun _ _ => sq_nonneg _

/-- The regularisation alone is at most the objective. -/
theorem norm_le_objective (C : SpRows R) (X Y : List (Vec f R)) (reg : R) :
    reg * (Spec.sqNorm X + Spec.sqNorm Y) ≤ Spec.objective C X Y reg := by
  unfold Spec.objective
  have : 0 ≤ ∑ u : Fin X.length, ∑ i : Fin Y.length,
      Spec.confidence (C[u.1]?.getD []) i *
        (Spec.preference (C[u.1]?.getD []) i - ∑ j, X[u] j * Y[i] j) ^ 2 :=
    Finset.sum_nonneg fun _ _ => Finset.sum_nonneg fun _ _ =>
      mul_nonneg (confidence_nonneg _ _) (sq_nonneg _)
  linarith

theorem userGradient_eq (C : SpRows R) (X Y : List (Vec f R)) (reg : R) (u : Fin X.length) :
    Spec.userGradient C X Y reg u = Spec.residual Y (C[u.1]?.getD []) reg X[u] := by
  funext a
  rw [residual_short]
  rfl

theorem itemGradient_eq (C : SpRows R) (X Y : List (Vec f R)) (reg : R)
    (n : Nat) (hn : n = Y.length) (hv : ∀ row ∈ C, ValidRow Y.length row) (i : Fin Y.length) :
    Spec.itemGradient C X Y reg i = Spec.residual X ((transposeRows n C)[i.1]?.getD []) reg Y[i] := by
  subst hn
  funext a
  rw [residual_short]
  unfold Spec.itemGradient
  congr 1
  refine Finset.sum_congr rfl fun u _ => ?_
  have hi : i.1 < (transposeRows Y.length C).length := by rw [transpose_length]; exact i.2
  have hl := transpose_lookup hv (List.getElem?_eq_getElem hi) u.1
  unfold Spec.confidence Spec.preference
  rw [List.getElem?_eq_getElem hi, Option.getD_some, hl]
  congr 3
  exact Finset.sum_congr rfl (fun j _ => mul_comm _ _)

theorem normalEquations_residual (Y : List (Vec f R)) (row : List (Nat × R)) (reg : R) (x : Vec f R) :
    Spec.NormalEquations Y row reg x ↔ Spec.residual Y row reg x = 0 := by
  rw [funext_iff]
  refine forall_congr' (fun a => ?_)
  unfold Spec.residual
  rw [Pi.zero_apply, sub_eq_zero, eq_comm]

/-- A sweep that returns the solution of every row problem. -/
def ExactSweep (solver : SweepFn f R) (reg : R) : Prop :=
  ∀ (C : SpRows R) (X Y : List (Vec f R)), X.length ≤ C.length →
    (∀ row ∈ C, ValidRow Y.length row) →
    ∃ X', solver C X Y reg = .ok X' ∧ X'.length = X.length ∧
      ∀ (u : Nat) x row, X'[u]? = some x → C[u]? = some row → Spec.NormalEquations Y row reg x

theorem alsSolver_exact (S : Solver f R) (tol : R) (p : ALSParams R) (hcg : p.useCg = false)
    {reg : R} (hreg : 0 < reg) : ExactSweep (alsSolver S tol p) reg := by
  unfold alsSolver
  rw [hcg]
  simp only [Bool.false_eq_true, if_false]
  split_ifs
  · intro C X Y hC hv
    obtain ⟨X', e, hl, h⟩ := C11_least_squares S C X Y hC hv hreg
    exact ⟨X', e, hl, fun u x row h1 h2 => (h u x row h1 h2).1⟩
  · intro C X Y hC hv
    obtain ⟨X', e, hl, h⟩ := C11_least_squares_py S C X Y hC hv hreg
    exact ⟨X', e, hl, fun u x row h1 h2 => (h u x row h1 h2).1⟩

private theorem sum_gap {n n' : Nat} (h : n' = n) (a d : Fin n → R) (b : Fin n' → R)
    (hle : ∀ (i : Nat) (h1 : i < n) (h2 : i < n'), b ⟨i, h2⟩ + d ⟨i, h1⟩ ≤ a ⟨i, h1⟩) :
    ∑ i, b i + ∑ i, d i ≤ ∑ i, a i := by
  subst h
  rw [← Finset.sum_add_distrib]
  exact Finset.sum_le_sum fun i _ => hle i.1 i.2 i.2

/-- An exact half-iteration over the users. -/
theorem exact_users {solver : SweepFn f R} {reg : R} (hs : ExactSweep solver reg)
    (C : SpRows R) (X Y : List (Vec f R)) (hC : C.length = X.length)
    (hv : ∀ row ∈ C, ValidRow Y.length row) :
    ∃ X', solver C X Y reg = .ok X' ∧ X'.length = X.length ∧
      (∀ u, Spec.userGradient C X' Y reg u = 0) ∧
      Spec.objective C X' Y reg + reg * Spec.sqDist X X' ≤ Spec.objective C X Y reg := by
  obtain ⟨X', e, hl, hN⟩ := hs C X Y hC.ge hv
  refine ⟨X', e, hl, ?_, ?_⟩
  · intro u
    have hu : u.1 < C.length := by have := u.2; omega
    rw [userGradient_eq, ← normalEquations_residual, List.getElem?_eq_getElem hu, Option.getD_some]
    exact hN u.1 X'[u] C[u.1] (List.getElem?_eq_getElem u.2) (List.getElem?_eq_getElem hu)
  · rw [objective_users, objective_users C X]
    have := sum_gap hl (fun u => Spec.rowLoss Y (C[u.1]?.getD []) reg X[u])
      (fun u => reg * ∑ j, (X[u] j - (X'[u.1]?.getD 0) j) ^ 2)
      (fun u => Spec.rowLoss Y (C[u.1]?.getD []) reg X'[u]) (by
        intro u h1 h2
        have hu : u < C.length := by omega
        simp only [List.getElem?_eq_getElem hu, Option.getD_some, List.getElem?_eq_getElem h2]
        exact rowLoss_growth Y C[u] (hN u X'[u] C[u] (List.getElem?_eq_getElem h2)
          (List.getElem?_eq_getElem hu)) X[u])
    unfold Spec.sqDist
    rw [Finset.mul_sum]
    linarith

/-- An exact half-iteration over the items. -/
theorem exact_items {solver : SweepFn f R} {reg : R} (hs : ExactSweep solver reg)
    (C : SpRows R) (X Y : List (Vec f R)) (hC : C.length = X.length)
    (hv : ∀ row ∈ C, ValidRow Y.length row) :
    ∃ Y', solver (transposeRows Y.length C) Y X reg = .ok Y' ∧ Y'.length = Y.length ∧
      (∀ i, Spec.itemGradient C X Y' reg i = 0) ∧
      Spec.objective C X Y' reg + reg * Spec.sqDist Y Y' ≤ Spec.objective C X Y reg := by
  have hv' := transpose_valid hv
  rw [hC] at hv'
  have hlen := transpose_length Y.length C
  obtain ⟨Y', e, hl, hN⟩ := hs (transposeRows Y.length C) Y X hlen.ge hv'
  have hvY' : ∀ row ∈ C, ValidRow Y'.length row := by rw [hl]; exact hv
  refine ⟨Y', e, hl, ?_, ?_⟩
  · intro i
    have hi : i.1 < (transposeRows Y.length C).length := by have := i.2; omega
    rw [itemGradient_eq C X Y' reg Y.length hl.symm hvY', ← normalEquations_residual,
      List.getElem?_eq_getElem hi, Option.getD_some]
    exact hN i.1 Y'[i] _ (List.getElem?_eq_getElem i.2) (List.getElem?_eq_getElem hi)
  · rw [objective_items C X Y' reg Y.length hl.symm hvY', objective_items C X Y reg _ rfl hv]
    have := sum_gap hl
      (fun i => Spec.rowLoss X ((transposeRows Y.length C)[i.1]?.getD []) reg Y[i])
      (fun i => reg * ∑ j, (Y[i] j - (Y'[i.1]?.getD 0) j) ^ 2)
      (fun i => Spec.rowLoss X ((transposeRows Y.length C)[i.1]?.getD []) reg Y'[i]) (by
        intro i h1 h2
        have hi : i < (transposeRows Y.length C).length := by omega
        simp only [List.getElem?_eq_getElem hi, Option.getD_some, List.getElem?_eq_getElem h2]
        exact rowLoss_growth X _ (hN i Y'[i] _ (List.getElem?_eq_getElem h2)
          (List.getElem?_eq_getElem hi)) Y[i])
    unfold Spec.sqDist
    rw [Finset.mul_sum]
    linarith

/-! ## Decrease by at least the squared gradient -/

theorem axpy_val (t : R) (p x : Vec f R) (j : Fin f) : axpy t p x j - x j = t * p j := by
  unfold axpy; ring

/-- The step along the residual `r` of length `1 / L` lowers the loss by at least `r² / L`. -/
theorem line_decrease (Y : List (Vec f R)) (row : List (Nat × R)) {reg K : R} (hreg : 0 < reg)
    (hK : ∀ i, Spec.confidence row i ≤ K) (x : Vec f R) :
    Spec.rowLoss Y row reg (axpy (1 / (K * Spec.sqNorm Y + reg)) (Spec.residual Y row reg x) x) +
        (∑ j, Spec.residual Y row reg x j ^ 2) / (K * Spec.sqNorm Y + reg) ≤
      Spec.rowLoss Y row reg x := by
  obtain ⟨r, hr⟩ : ∃ r, r = Spec.residual Y row reg x := ⟨_, rfl⟩
  obtain ⟨L, hL⟩ : ∃ L, L = K * Spec.sqNorm Y + reg := ⟨_, rfl⟩
  have hK0 : 0 ≤ K := (confidence_nonneg row 0).trans (hK 0)
  have hL0 : 0 < L := by
    rw [hL]
    have := mul_nonneg hK0 (sqNorm_nonneg Y)
    linarith
  rw [← hr, ← hL, rowLoss_expand Y row reg x, ← hr]
  simp only [axpy_val]
  have e1 : ∑ a, 1 / L * r a * r a = 1 / L * ∑ a, r a ^ 2 := by
    rw [Finset.mul_sum]; exact Finset.sum_congr rfl fun a _ => by ring
  have e2 : ∑ a, (1 / L * r a) ^ 2 = (1 / L) ^ 2 * ∑ a, r a ^ 2 := by
    rw [Finset.mul_sum]; exact Finset.sum_congr rfl fun a _ => by ring
  have e3 : ∑ i : Fin Y.length, Spec.confidence row i * (∑ j, 1 / L * r j * Y[i] j) ^ 2 ≤
      (1 / L) ^ 2 * (K * Spec.sqNorm Y * ∑ a, r a ^ 2) := by
    rw [sqNorm_fin, Finset.mul_sum Finset.univ _ K, Finset.sum_mul, Finset.mul_sum]
    refine Finset.sum_le_sum fun i _ => ?_
    have h1 : ∑ j, 1 / L * r j * Y[i] j = 1 / L * ∑ j, r j * Y[i] j := by
      rw [Finset.mul_sum]; exact Finset.sum_congr rfl fun a _ => by ring
    rw [h1, mul_pow]
    have h2 : (∑ j, r j * Y[i] j) ^ 2 ≤ (∑ a, r a ^ 2) * ∑ j, Y[i] j ^ 2 :=
      Finset.sum_mul_sq_le_sq_mul_sq _ _ _
    have h3 : Spec.confidence row i * (∑ j, r j * Y[i] j) ^ 2 ≤
        K * ((∑ a, r a ^ 2) * ∑ j, Y[i] j ^ 2) :=
      mul_le_mul (hK i) h2 (sq_nonneg _) hK0
    have h4 := mul_le_mul_of_nonneg_left h3 (sq_nonneg (1 / L))
    linarith
  rw [e1, e2]
  obtain ⟨q, hq⟩ : ∃ q, q = ∑ a, r a ^ 2 := ⟨_, rfl⟩
  rw [← hq] at e3 ⊢
  have h5 : (1 / L) ^ 2 * (K * Spec.sqNorm Y * q) + reg * ((1 / L) ^ 2 * q) = q / L := by
    have : (1 / L) ^ 2 * (K * Spec.sqNorm Y * q) + reg * ((1 / L) ^ 2 * q) =
      (1 / L) ^ 2 * (K * Spec.sqNorm Y + reg) * q := by ring
    rw [this, ← hL]
    field_simp
  have h6 : 2 * (1 / L * q) = q / L + q / L := by ring
  linarith

/-- The first round of conjugate gradients is at least as good as any step along the residual. -/
theorem cg_first_line (Y : List (Vec f R)) (row : List (Nat × R)) (h : ValidRow Y.length row)
    {reg : R} (hreg : 0 < reg) (x : Vec f R) (t : R) :
    Spec.rowLoss Y row reg (cgRun Y row reg x 1).x ≤
      Spec.rowLoss Y row reg (axpy t (Spec.residual Y row reg x) x) := by
  have hA : PosDef (linearEquation (gram Y) reg (entriesOf Y row)).1 :=
    linearEquation_posDef Y row h.nodup h.lt hreg
  have hr : Spec.residual Y row reg x = (linearEquation (gram Y) reg (entriesOf Y row)).2 -
      mulVec (linearEquation (gram Y) reg (entriesOf Y row)).1 x := residual_eq Y row h reg x
  rw [rowLoss_quad Y row h, rowLoss_quad Y row h, cgRun_eq, quad_axpy hA, ← hr]
  have hs := state_quad (b := (linearEquation (gram Y) reg (entriesOf Y row)).2) (x := x) hA 0
  have hx0 : (cgState (linearEquation (gram Y) reg (entriesOf Y row)).1
      (linearEquation (gram Y) reg (entriesOf Y row)).2 x 0).x = x := rfl
  have hr0 : (cgState (linearEquation (gram Y) reg (entriesOf Y row)).1
      (linearEquation (gram Y) reg (entriesOf Y row)).2 x 0).r = Spec.residual Y row reg x := by
    rw [hr]; rfl
  have hp0 : (cgState (linearEquation (gram Y) reg (entriesOf Y row)).1
      (linearEquation (gram Y) reg (entriesOf Y row)).2 x 0).p = Spec.residual Y row reg x := by
    rw [hr]; rfl
  rw [hx0, hr0, hp0] at hs
  simp only [Nat.zero_add] at hs
  rw [hs]
  obtain ⟨r, hr⟩ : ∃ r, r = Spec.residual Y row reg x := ⟨_, rfl⟩
  rw [← hr]
  by_cases hz : r = 0
  · have h1 : dot r r = 0 := by rw [hz]; exact dot_zero_right' _
    have h2 : dot r (mulVec (linearEquation (gram Y) reg (entriesOf Y row)).1 r) = 0 := by
      rw [hz, mulVec_zero]; exact dot_zero_right' _
    rw [h1, h2]; simp
  · have hP := pAp_pos hA hz
    obtain ⟨P, hP'⟩ : ∃ P, P = dot r (mulVec (linearEquation (gram Y) reg (entriesOf Y row)).1 r) :=
      ⟨_, rfl⟩
    rw [← hP'] at hP ⊢
    have key : t ^ 2 * P - 2 * t * dot r r + dot r r ^ 2 / P = (t * P - dot r r) ^ 2 / P := by
      field_simp
      ring
    have : 0 ≤ (t * P - dot r r) ^ 2 / P := div_nonneg (sq_nonneg _) hP.le
    linarith

/-- What one row of a sweep achieves: never worse, and if the squared residual is at least `tol` then
better by a fixed fraction of it. -/
def RowDecrease (Y : List (Vec f R)) (row : List (Nat × R)) (reg tol : R) (x x' : Vec f R) : Prop :=
  Spec.rowLoss Y row reg x' ≤ Spec.rowLoss Y row reg x ∧
    (tol ≤ ∑ j, Spec.residual Y row reg x j ^ 2 → ∀ K, (∀ i, Spec.confidence row i ≤ K) →
      Spec.rowLoss Y row reg x' + (∑ j, Spec.residual Y row reg x j ^ 2) / (K * Spec.sqNorm Y + reg) ≤
        Spec.rowLoss Y row reg x)

theorem rowDecrease_optimum (Y : List (Vec f R)) (row : List (Nat × R)) {reg : R} (hreg : 0 < reg)
    (tol : R) {x' : Vec f R} (h : Spec.NormalEquations Y row reg x') (x : Vec f R) :
    RowDecrease Y row reg tol x x' := by
  have hle : ∀ z, Spec.rowLoss Y row reg x' ≤ Spec.rowLoss Y row reg z := by
    intro z
    have := rowLoss_growth Y row h z
    have h2 : 0 ≤ reg * ∑ j, (z j - x' j) ^ 2 :=
      mul_nonneg hreg.le (Finset.sum_nonneg fun _ _ => sq_nonneg _)
    linarith
  refine ⟨hle x, fun _ K hK => ?_⟩
  have := line_decrease Y row hreg hK x
  have := hle (axpy (1 / (K * Spec.sqNorm Y + reg)) (Spec.residual Y row reg x) x)
  linarith

theorem rowDecrease_cg (Y : List (Vec f R)) (row : List (Nat × R)) (h : ValidRow Y.length row)
    {reg : R} (hreg : 0 < reg) (tol : R) {steps : Nat} (hsteps : 1 ≤ steps) (x : Vec f R) :
    RowDecrease Y row reg tol x
      (cgSolve (regularised (gram Y) reg) tol steps (entriesOf Y row) x) := by
  refine ⟨(C14_cg_never_worse Y row h hreg tol steps x).1, fun ht K hK => ?_⟩
  obtain ⟨k, hk, e, _, _, h1⟩ := cgSolve_run Y row reg tol steps x
  have h0 := (C14_cg_residual Y row h reg x 0)
  have hk1 : 1 ≤ k := h1 hsteps (by rw [h0.2]; exact ht)
  have hmono : ∀ m, Spec.rowLoss Y row reg (cgRun Y row reg x (m + 1)).x ≤
      Spec.rowLoss Y row reg (cgRun Y row reg x 1).x := by
    intro m
    induction m with
    | zero => exact le_refl _
    | succ m ih => exact (C14_cg_step Y row h hreg x (m + 1)).1.trans ih
  have h2 := hmono (k - 1)
  rw [show k - 1 + 1 = k by omega] at h2
  rw [e]
  have := line_decrease Y row hreg hK x
  have := cg_first_line Y row h hreg x (1 / (K * Spec.sqNorm Y + reg))
  linarith

/-- A sweep in which every row makes progress. -/
def DecreasingSweep (solver : SweepFn f R) (reg tol : R) : Prop :=
  ∀ (C : SpRows R) (X Y : List (Vec f R)), C.length = X.length →
    (∀ row ∈ C, ValidRow Y.length row) →
    ∃ X', solver C X Y reg = .ok X' ∧ X'.length = X.length ∧
      ∀ (u : Nat) x x' row, X[u]? = some x → X'[u]? = some x' → C[u]? = some row →
        RowDecrease Y row reg tol x x'

omit [IsStrictOrderedRing R] in
theorem decreasing_of_rows {solver : SweepFn f R} {reg tol : R} (err : Err)
    (g : List (Vec f R) → List (Nat × R) → Vec f R → Except Err (Vec f R))
    (hsolver : ∀ C X Y, solver C X Y reg = X.zipIdx.mapM fun xu =>
      match C[xu.2]? with
      | none => Except.error err
      | some row => g Y row xu.1)
    (hg : ∀ (Y : List (Vec f R)) (row : List (Nat × R)), ValidRow Y.length row → ∀ x, ∃ x',
      g Y row x = .ok x' ∧ RowDecrease Y row reg tol x x') :
    DecreasingSweep solver reg tol := by
  intro C X Y hC hv
  have hrow : ∀ p : Vec f R × Nat, p ∈ X.zipIdx → ∃ x', (match C[p.2]? with
      | none => Except.error err
      | some row => g Y row p.1) = .ok x' := by
    rintro ⟨x, u⟩ hp
    have hu : u < C.length := by
      have := (List.getElem?_eq_some_iff.mp ((mem_zipIdx_iff' (p := (x, u))).mp hp)).1
      simp at this; omega
    simp only [List.getElem?_eq_getElem hu]
    obtain ⟨x', e, _⟩ := hg Y _ (hv _ (List.getElem_mem hu)) x
    exact ⟨x', e⟩
  choose! F hF using hrow
  refine ⟨X.zipIdx.map F, ?_, by simp, ?_⟩
  · rw [hsolver]; exact mapM_ok_of hF
  · intro u x x' row hx hx' hr
    have hmem : (x, u) ∈ X.zipIdx := (mem_zipIdx_iff' (p := (x, u))).mpr hx
    have h1 := hF (x, u) hmem
    simp only [hr] at h1
    obtain ⟨x'', e, hle⟩ := hg Y row (hv _ (List.mem_of_getElem? hr)) x
    rw [e] at h1
    have h2 : x'' = F (x, u) := by cases h1; rfl
    have h3 : x' = F (x, u) := by
      rw [List.getElem?_map, List.getElem?_zipIdx, hx] at hx'
      simpa using hx'.symm
    rw [h3, ← h2]; exact hle

theorem alsSolver_decreasing (S : Solver f R) (tol : R) (p : ALSParams R)
    (hcg : p.useCg = true → 1 ≤ p.cgSteps) {reg : R} (hreg : 0 < reg) :
    DecreasingSweep (alsSolver S tol p) reg (if p.useCg then tol else 0) := by
  cases hu : p.useCg with
  | false =>
    intro C X Y hC hv
    obtain ⟨X', e, hl, h⟩ := alsSolver_exact S tol p hu hreg C X Y hC.ge hv
    exact ⟨X', e, hl, fun u x x' row _ h2 h3 => rowDecrease_optimum Y row hreg _ (h u x' row h2 h3) x⟩
  | true =>
    unfold alsSolver
    rw [hu]
    simp only [if_true]
    split_ifs
    · refine decreasing_of_rows .undefinedBehaviour
        (fun Y row x => cgRow (regularised (gram Y) reg) tol p.cgSteps Y row x) (fun _ _ _ => rfl) ?_
      intro Y row h x
      cases row with
      | nil =>
        refine ⟨fun _ => 0, rfl, rowDecrease_optimum Y [] hreg _ ?_ x⟩
        rw [normalEquations_iff Y [] h]
        funext a
        rw [List.map_nil, linearEquation_snd]
        exact dot_zero_right _
      | cons e row =>
        refine ⟨_, ?_, rowDecrease_cg Y (e :: row) h hreg tol (hcg hu) x⟩
        simp only [cgRow]
        rw [rowEntries_eq h.lt]
        rfl
    · refine decreasing_of_rows .indexError
        (fun Y row x => do
          let es ← rowEntries .indexError Y row
          pure (cgSolve (regularised (gram Y) reg) tol p.cgSteps es x)) (fun _ _ _ => rfl) ?_
      intro Y row h x
      refine ⟨_, ?_, rowDecrease_cg Y row h hreg tol (hcg hu) x⟩
      rw [rowEntries_eq h.lt]
      rfl

private theorem sum_drop {n n' : Nat} (h : n' = n) (a : Fin n → R) (b : Fin n' → R) {d : R}
    (hle : ∀ (i : Nat) (h1 : i < n) (h2 : i < n'), b ⟨i, h2⟩ ≤ a ⟨i, h1⟩)
    (i : Fin n) (hi : ∀ h2, b ⟨i.1, h2⟩ + d ≤ a i) : ∑ i, b i + d ≤ ∑ i, a i := by
  subst h
  have h1 := Finset.sum_le_sum (s := Finset.univ.erase i) fun j _ => hle j.1 j.2 j.2
  rw [← Finset.add_sum_erase _ b (Finset.mem_univ i), ← Finset.add_sum_erase _ a (Finset.mem_univ i)]
  have := hi i.2
  linarith

private theorem sum_le' {n n' : Nat} (h : n' = n) (a : Fin n → R) (b : Fin n' → R)
    (hle : ∀ (i : Nat) (h1 : i < n) (h2 : i < n'), b ⟨i, h2⟩ ≤ a ⟨i, h1⟩) : ∑ i, b i ≤ ∑ i, a i := by
  subst h
  exact Finset.sum_le_sum fun i _ => hle i.1 i.2 i.2

/-- A bound on the stored values bounds the confidences. -/
theorem confidence_le {C : SpRows R} {K : R} (hK1 : 1 ≤ K) (hK : ∀ row ∈ C, ∀ e ∈ row, |e.2| ≤ K)
    (u i : Nat) : Spec.confidence (C[u]?.getD []) i ≤ K := by
  unfold Spec.confidence
  cases h : C[u]? with
  | none => simpa using hK1
  | some row =>
    simp only [Option.getD_some]
    cases hl : row.lookup i with
    | none => exact hK1
    | some c =>
      have : (i, c) ∈ row := by
        obtain ⟨k1, k2, h4, _⟩ := List.lookup_eq_some_iff.mp hl
        subst h4
        simp
      exact hK row (List.mem_of_getElem? h) _ this

/-- A half-iteration over the users lowers the objective by the squared gradient of any user. -/
theorem decreasing_users {solver : SweepFn f R} {reg tol K : R} (hs : DecreasingSweep solver reg tol)
    (C : SpRows R) (X Y : List (Vec f R)) (hC : C.length = X.length)
    (hv : ∀ row ∈ C, ValidRow Y.length row) (hK1 : 1 ≤ K) (hK : ∀ row ∈ C, ∀ e ∈ row, |e.2| ≤ K) :
    ∃ X', solver C X Y reg = .ok X' ∧ X'.length = X.length ∧
      Spec.objective C X' Y reg ≤ Spec.objective C X Y reg ∧
      ∀ u, tol ≤ ∑ j, Spec.userGradient C X Y reg u j ^ 2 →
        Spec.objective C X' Y reg +
          (∑ j, Spec.userGradient C X Y reg u j ^ 2) / (K * Spec.sqNorm Y + reg) ≤
            Spec.objective C X Y reg := by
  obtain ⟨X', e, hl, hD⟩ := hs C X Y hC hv
  have hle : ∀ (i : Nat) (h1 : i < X.length) (h2 : i < X'.length),
      Spec.rowLoss Y (C[i]?.getD []) reg X'[i] ≤ Spec.rowLoss Y (C[i]?.getD []) reg X[i] := by
    intro u h1 h2
    have hu : u < C.length := by omega
    simp only [List.getElem?_eq_getElem hu, Option.getD_some]
    exact (hD u X[u] X'[u] C[u] (List.getElem?_eq_getElem h1) (List.getElem?_eq_getElem h2)
      (List.getElem?_eq_getElem hu)).1
  refine ⟨X', e, hl, ?_, ?_⟩
  · rw [objective_users, objective_users C X]
    have := sum_le' hl (fun u => Spec.rowLoss Y (C[u.1]?.getD []) reg X[u])
      (fun u => Spec.rowLoss Y (C[u.1]?.getD []) reg X'[u]) hle
    linarith
  · intro u hu
    rw [userGradient_eq] at hu ⊢
    rw [objective_users, objective_users C X]
    have := sum_drop hl (fun u => Spec.rowLoss Y (C[u.1]?.getD []) reg X[u])
      (fun u => Spec.rowLoss Y (C[u.1]?.getD []) reg X'[u])
      (d := (∑ j, Spec.residual Y (C[u.1]?.getD []) reg X[u] j ^ 2) / (K * Spec.sqNorm Y + reg)) hle u
      (by
        intro h2
        have huC : u.1 < C.length := by have := u.2; omega
        have hd := (hD u X[u] X'[u.1] C[u.1] (List.getElem?_eq_getElem u.2) (List.getElem?_eq_getElem h2)
          (List.getElem?_eq_getElem huC)).2
        have hc := confidence_le hK1 hK u.1
        simp only [List.getElem?_eq_getElem huC, Option.getD_some] at hu hc ⊢
        exact hd hu K hc)
    linarith

/-- A half-iteration over the items lowers the objective by the squared gradient of any item. -/
theorem decreasing_items {solver : SweepFn f R} {reg tol K : R} (hs : DecreasingSweep solver reg tol)
    (C : SpRows R) (X Y : List (Vec f R)) (hC : C.length = X.length)
    (hv : ∀ row ∈ C, ValidRow Y.length row) (hK1 : 1 ≤ K) (hK : ∀ row ∈ C, ∀ e ∈ row, |e.2| ≤ K) :
    ∃ Y', solver (transposeRows Y.length C) Y X reg = .ok Y' ∧ Y'.length = Y.length ∧
      Spec.objective C X Y' reg ≤ Spec.objective C X Y reg ∧
      ∀ i, tol ≤ ∑ j, Spec.itemGradient C X Y reg i j ^ 2 →
        Spec.objective C X Y' reg +
          (∑ j, Spec.itemGradient C X Y reg i j ^ 2) / (K * Spec.sqNorm X + reg) ≤
            Spec.objective C X Y reg := by
  have hv' := transpose_valid hv
  rw [hC] at hv'
  have hlen := transpose_length Y.length C
  obtain ⟨Y', e, hl, hD⟩ := hs (transposeRows Y.length C) Y X hlen hv'
  have hvY' : ∀ row ∈ C, ValidRow Y'.length row := by rw [hl]; exact hv
  have hKT : ∀ col ∈ transposeRows Y.length C, ∀ e ∈ col, |e.2| ≤ K := by
    intro col hcol e he
    obtain ⟨i, hi, rfl⟩ := List.getElem_of_mem hcol
    obtain ⟨row, hrow, hmem⟩ := (mem_transpose (List.getElem?_eq_getElem hi) (u := e.1) (c := e.2)).mp he
    exact hK row (List.mem_of_getElem? hrow) (i, e.2) hmem
  have hle : ∀ (i : Nat) (h1 : i < Y.length) (h2 : i < Y'.length),
      Spec.rowLoss X ((transposeRows Y.length C)[i]?.getD []) reg Y'[i] ≤
        Spec.rowLoss X ((transposeRows Y.length C)[i]?.getD []) reg Y[i] := by
    intro u h1 h2
    have hu : u < (transposeRows Y.length C).length := by omega
    simp only [List.getElem?_eq_getElem hu, Option.getD_some]
    exact (hD u Y[u] Y'[u] _ (List.getElem?_eq_getElem h1) (List.getElem?_eq_getElem h2)
      (List.getElem?_eq_getElem hu)).1
  refine ⟨Y', e, hl, ?_, ?_⟩
  · rw [objective_items C X Y' reg Y.length hl.symm hvY', objective_items C X Y reg _ rfl hv]
    have := sum_le' hl
      (fun i => Spec.rowLoss X ((transposeRows Y.length C)[i.1]?.getD []) reg Y[i])
      (fun i => Spec.rowLoss X ((transposeRows Y.length C)[i.1]?.getD []) reg Y'[i]) hle
    linarith
  · intro i hi
    rw [itemGradient_eq C X Y reg Y.length rfl hv] at hi ⊢
    rw [objective_items C X Y' reg Y.length hl.symm hvY', objective_items C X Y reg _ rfl hv]
    have := sum_drop hl
      (fun i => Spec.rowLoss X ((transposeRows Y.length C)[i.1]?.getD []) reg Y[i])
      (fun i => Spec.rowLoss X ((transposeRows Y.length C)[i.1]?.getD []) reg Y'[i])
      (d := (∑ j, Spec.residual X ((transposeRows Y.length C)[i.1]?.getD []) reg Y[i] j ^ 2) /
        (K * Spec.sqNorm X + reg)) hle i
      (by
        intro h2
        have hiC : i.1 < (transposeRows Y.length C).length := by have := i.2; omega
        have hd := (hD i Y[i] Y'[i.1] _ (List.getElem?_eq_getElem i.2) (List.getElem?_eq_getElem h2)
          (List.getElem?_eq_getElem hiC)).2
        have hc := confidence_le hK1 hKT i.1
        simp only [List.getElem?_eq_getElem hiC, Option.getD_some] at hi hc ⊢
        exact hd hi K hc)
    linarith

/-! ## Summing over the iterations -/

/-- If every iteration keeps the invariant `I` and lowers `V` by at least `gain`, the gains of any run
sum up to at most the total decrease. -/
theorem trace_gain {solver : SweepFn f R} {C Ct : SpRows R} {reg : R} (I : Factors f R → Prop)
    (V : Factors f R → R) (gain : Factors f R → Factors f R → R) (P : Factors f R → Factors f R → Prop)
    (step : ∀ m, I m → ∃ m', alsIteration solver C Ct reg m = .ok m' ∧ I m' ∧ P m m' ∧
      V m' + gain m m' ≤ V m) (n : Nat) (m : Factors f R) (hm : I m) :
    ∃ trace, alsTrace solver C Ct reg n m = .ok trace ∧ trace.length = n ∧
      (∀ s ∈ (m :: trace).zip trace, P s.1 s.2) ∧ (∀ m' ∈ trace, I m') ∧
      V (trace.getLastD m) + (((m :: trace).zip trace).map fun s => gain s.1 s.2).sum ≤ V m := by
  induction n generalizing m with
  | zero => exact ⟨[], rfl, rfl, by simp, by simp, by simp⟩
  | succ n ih =>
    obtain ⟨m', e, hI, hP, hle⟩ := step m hm
    obtain ⟨trace, et, hlen, hP', hI', hsum⟩ := ih m' hI
    refine ⟨m' :: trace, ?_, by simp [hlen], ?_, ?_, ?_⟩
    · unfold alsTrace
      rw [e]
      simp only [bind, Except.bind]
      rw [et]
      rfl
    · intro s hs
      rw [List.zip_cons_cons] at hs
      rcases List.mem_cons.mp hs with rfl | hs
      · exact hP
      · exact hP' s hs
    · intro b hb
      rcases List.mem_cons.mp hb with rfl | hb
      · exact hI
      · exact hI' b hb
    · rw [List.zip_cons_cons, List.map_cons, List.sum_cons]
      have : (m' :: trace).getLastD m = trace.getLastD m' := by
        simp only [List.getLastD_cons]
      rw [this]
      linarith

end Implicit
