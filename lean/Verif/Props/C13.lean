import Verif.Props.C12
import Verif.Props.C14

/-!
# C13 — ALS training never increases the objective

Stated for all four solvers of `fit` (direct or conjugate gradient, native or python).
-/

namespace Implicit

variable {R : Type} [LinearOrder R] [Field R] [IsStrictOrderedRing R] {f : Nat}

open Spec (ValidRow)

theorem rowLoss_reg (Y : List (Vec f R)) (row : List (Nat × R)) (reg : R) (x : Vec f R) :
    Spec.rowLoss Y row reg x = Spec.rowLoss Y row 0 x + reg * ∑ j, x j ^ 2 := by
  unfold Spec.rowLoss; ring

theorem sqNorm_fin (X : List (Vec f R)) : Spec.sqNorm X = ∑ u : Fin X.length, ∑ j, X[u] j ^ 2 := by
  unfold Spec.sqNorm; rw [sum_fin_list]

/-- The objective as a sum of row problems in the user factors. -/
theorem objective_users (C : SpRows R) (X Y : List (Vec f R)) (reg : R) :
    Spec.objective C X Y reg =
      (∑ u : Fin X.length, Spec.rowLoss Y (C[u.1]?.getD []) reg X[u]) + reg * Spec.sqNorm Y := by
  rw [objective_eq]
  simp only [rowLoss_reg Y _ reg, Finset.sum_add_distrib, ← Finset.mul_sum]
  rw [← sqNorm_fin]; ring

/-- The objective as a sum of row problems in the item factors, over the transposed matrix. -/
theorem objective_items (C : SpRows R) (X Y : List (Vec f R)) (reg : R)
    (n : Nat) (hn : n = Y.length) (hv : ∀ row ∈ C, ValidRow Y.length row) :
    Spec.objective C X Y reg =
      (∑ i : Fin Y.length,
        Spec.rowLoss X ((transposeRows n C)[i.1]?.getD []) reg Y[i]) +
        reg * Spec.sqNorm X := by
  subst hn
  simp only [rowLoss_reg X _ reg, Finset.sum_add_distrib, ← Finset.mul_sum]
  rw [← sqNorm_fin]
  have : (∑ i : Fin Y.length,
        Spec.rowLoss X ((transposeRows Y.length C)[i.1]?.getD []) 0 Y[i]) =
      ∑ u : Fin X.length, Spec.rowLoss Y (C[u.1]?.getD []) 0 X[u] := by
    unfold Spec.rowLoss
    simp only [zero_mul, add_zero]
    rw [Finset.sum_comm]
    refine Finset.sum_congr rfl (fun u _ => Finset.sum_congr rfl (fun i _ => ?_))
    have hi : i.1 < (transposeRows Y.length C).length := by rw [transpose_length]; exact i.2
    have hl := transpose_lookup hv (List.getElem?_eq_getElem hi) u.1
    unfold Spec.confidence Spec.preference
    rw [List.getElem?_eq_getElem hi, Option.getD_some, hl]
    congr 3
    exact Finset.sum_congr rfl (fun j _ => mul_comm _ _)
  rw [this, objective_eq]
  ring

/-- A sweep returns and no row gets a larger loss. -/
def NonWorsening (solver : SweepFn f R) (reg : R) : Prop :=
  ∀ (C : SpRows R) (X Y : List (Vec f R)), C.length = X.length →
    (∀ row ∈ C, ValidRow Y.length row) →
    ∃ X', solver C X Y reg = .ok X' ∧ X'.length = X.length ∧
      ∀ (u : Nat) x x' row, X[u]? = some x → X'[u]? = some x' → C[u]? = some row →
        Spec.rowLoss Y row reg x' ≤ Spec.rowLoss Y row reg x

theorem nonWorsening_of_optimum {solver : SweepFn f R} {reg : R}
    (h : ∀ (C : SpRows R) (X Y : List (Vec f R)), X.length ≤ C.length →
      (∀ row ∈ C, ValidRow Y.length row) →
      ∃ X', solver C X Y reg = .ok X' ∧ X'.length = X.length ∧
        ∀ (u : Nat) x row, X'[u]? = some x → C[u]? = some row →
          Spec.NormalEquations Y row reg x ∧ Spec.IsOptimum Y row reg x) :
    NonWorsening solver reg := by
  intro C X Y hC hv
  obtain ⟨X', e, hl, hopt⟩ := h C X Y hC.ge hv
  refine ⟨X', e, hl, fun u x x' row _ hx' hrow => ?_⟩
  by_cases hne : x = x'
  · rw [hne]
  · exact ((hopt u x' row hx' hrow).2 x hne).le

theorem nonWorsening_of_rows {solver : SweepFn f R} {reg : R} (err : Err)
    (g : List (Vec f R) → List (Nat × R) → Vec f R → Except Err (Vec f R))
    (hsolver : ∀ C X Y, solver C X Y reg = X.zipIdx.mapM fun xu =>
      match C[xu.2]? with
      | none => Except.error err
      | some row => g Y row xu.1)
    (hg : ∀ (Y : List (Vec f R)) (row : List (Nat × R)), ValidRow Y.length row → ∀ x, ∃ x',
      g Y row x = .ok x' ∧ Spec.rowLoss Y row reg x' ≤ Spec.rowLoss Y row reg x) :
    NonWorsening solver reg := by
  intro C X Y hC hv
  have hrow : ∀ p : Vec f R × Nat, p ∈ X.zipIdx → ∃ x', (match C[p.2]? with
      | none => Except.error err
      | some row => g Y row p.1) = .ok x' := by
    rintro ⟨x, u⟩ hp
    have hu : u < C.length := by
      have := (List.getElem?_eq_some_iff.mp ((mem_zipIdx_iff' (p := (x, u))).mp hp)).1
      simp at this; omega
    simp only [List.getElem?_eq_getElem hu]
    obtain ⟨x', e, _⟩ := hg Y _ (hv _ (List.getElem_mem hu)) x
    exact ⟨x', e⟩
  choose! F hF using hrow
  refine ⟨X.zipIdx.map F, ?_, by simp, ?_⟩
  · rw [hsolver]; exact mapM_ok_of hF
  · intro u x x' row hx hx' hr
    have hmem : (x, u) ∈ X.zipIdx := (mem_zipIdx_iff' (p := (x, u))).mpr hx
    have h1 := hF (x, u) hmem
    simp only [hr] at h1
    obtain ⟨x'', e, hle⟩ := hg Y row (hv _ (List.mem_of_getElem? hr)) x
    rw [e] at h1
    have h2 : x'' = F (x, u) := by cases h1; rfl
    have h3 : x' = F (x, u) := by
      rw [List.getElem?_map, List.getElem?_zipIdx, hx] at hx'
      simpa using hx'.symm
    rw [h3, ← h2]; exact hle

/-- **C13**, the per-row fact for each of the four solvers of `fit`. -/
theorem C13_solver (S : Solver f R) (tol : R) (p : ALSParams R) {reg : R} (hreg : 0 < reg) :
    NonWorsening (alsSolver S tol p) reg := by
  unfold alsSolver
  split_ifs
  · refine nonWorsening_of_rows .undefinedBehaviour
      (fun Y row x => cgRow (regularised (gram Y) reg) tol p.cgSteps Y row x) (fun _ _ _ => rfl) ?_
    intro Y row h x
    exact C14_cg_row Y row h hreg tol p.cgSteps x
  · refine nonWorsening_of_rows .indexError
      (fun Y row x => do
        let es ← rowEntries .indexError Y row
        pure (cgSolve (regularised (gram Y) reg) tol p.cgSteps es x)) (fun _ _ _ => rfl) ?_
    intro Y row h x
    refine ⟨_, ?_, (C14_cg_never_worse Y row h hreg tol p.cgSteps x).1⟩
    rw [rowEntries_eq h.lt]
    rfl
  · exact nonWorsening_of_optimum fun C X Y hC hv => C11_least_squares S C X Y hC hv hreg
  · exact nonWorsening_of_optimum fun C X Y hC hv => C11_least_squares_py S C X Y hC hv hreg

private theorem sum_le {n n' : Nat} (h : n' = n) (a : Fin n → R) (b : Fin n' → R)
    (hle : ∀ (i : Nat) (h1 : i < n) (h2 : i < n'), b ⟨i, h2⟩ ≤ a ⟨i, h1⟩) : ∑ i, b i ≤ ∑ i, a i := by
  subst h
  exact Finset.sum_le_sum fun i _ => hle i.1 i.2 i.2

/-- **C13** (half-iteration).  A sweep over the users, or over the items with the transposed data,
returns and does not increase the objective. -/
theorem C13_half_iteration (S : Solver f R) (tol : R) (p : ALSParams R) {reg : R} (hreg : 0 < reg)
    (C : SpRows R) (X Y : List (Vec f R)) (hC : C.length = X.length)
    (hv : ∀ row ∈ C, ValidRow Y.length row) :
    (∃ X', alsSolver S tol p C X Y reg = .ok X' ∧ X'.length = X.length ∧
      Spec.objective C X' Y reg ≤ Spec.objective C X Y reg) ∧
    (∃ Y', alsSolver S tol p (transposeRows Y.length C) Y X reg = .ok Y' ∧ Y'.length = Y.length ∧
      Spec.objective C X Y' reg ≤ Spec.objective C X Y reg) := by
  constructor
  · obtain ⟨X', e, hl, hle⟩ := C13_solver S tol p hreg C X Y hC hv
    refine ⟨X', e, hl, ?_⟩
    rw [objective_users, objective_users C X]
    have := sum_le hl (fun u => Spec.rowLoss Y (C[u.1]?.getD []) reg X[u])
      (fun u => Spec.rowLoss Y (C[u.1]?.getD []) reg X'[u]) (by
        intro u h1 h2
        have hu : u < C.length := by omega
        simp only [List.getElem?_eq_getElem hu, Option.getD_some]
        exact hle u X[u] X'[u] C[u] (List.getElem?_eq_getElem h1) (List.getElem?_eq_getElem h2)
          (List.getElem?_eq_getElem hu))
    linarith
  · have hv' := transpose_valid hv
    rw [hC] at hv'
    have hlen := transpose_length Y.length C
    obtain ⟨Y', e, hl, hle⟩ := C13_solver S tol p hreg (transposeRows Y.length C) Y X hlen hv'
    refine ⟨Y', e, hl, ?_⟩
    have hvY' : ∀ row ∈ C, ValidRow Y'.length row := by rw [hl]; exact hv
    rw [objective_items C X Y' reg Y.length hl.symm hvY', objective_items C X Y reg _ rfl hv]
    have := sum_le hl
      (fun i => Spec.rowLoss X ((transposeRows Y.length C)[i.1]?.getD []) reg Y[i])
      (fun i => Spec.rowLoss X ((transposeRows Y.length C)[i.1]?.getD []) reg Y'[i]) (by
        intro i h1 h2
        have hi : i < (transposeRows Y.length C).length := by omega
        simp only [List.getElem?_eq_getElem hi, Option.getD_some]
        exact hle i Y[i] Y'[i] _ (List.getElem?_eq_getElem h1) (List.getElem?_eq_getElem h2)
          (List.getElem?_eq_getElem hi))
    linarith

/-- One full iteration. -/
theorem C13_iteration (S : Solver f R) (tol : R) (p : ALSParams R) {reg : R} (hreg : 0 < reg)
    (C : SpRows R) (m : Factors f R) (hC : C.length = m.user.length)
    (hv : ∀ row ∈ C, ValidRow m.item.length row) :
    ∃ m', alsIteration (alsSolver S tol p) C (transposeRows m.item.length C) reg m = .ok m' ∧
      m'.user.length = m.user.length ∧ m'.item.length = m.item.length ∧
      Spec.objective C m'.user m'.item reg ≤ Spec.objective C m.user m.item reg := by
  obtain ⟨X', e1, hl1, hle1⟩ := (C13_half_iteration S tol p hreg C m.user m.item hC hv).1
  obtain ⟨Y', e2, hl2, hle2⟩ :=
    (C13_half_iteration S tol p hreg C X' m.item (by omega) hv).2
  refine ⟨⟨X', Y'⟩, ?_, hl1, hl2, hle2.trans hle1⟩
  unfold alsIteration
  rw [e1]
  simp only [bind, Except.bind]
  rw [e2]
  rfl

/-- **C13**.  Any number of iterations of `fit` from any starting factors: training returns, and the
objective of the starting factors followed by those seen by the callback never increases. -/
theorem C13_training (S : Solver f R) (tol : R) (p : ALSParams R) {reg : R} (hreg : 0 < reg)
    (C : SpRows R) (n : Nat) (m : Factors f R) (hC : C.length = m.user.length)
    (hv : ∀ row ∈ C, ValidRow m.item.length row) :
    ∃ trace, alsTrace (alsSolver S tol p) C (transposeRows m.item.length C) reg n m = .ok trace ∧
      trace.length = n ∧
      (m :: trace).Pairwise (fun a b =>
        Spec.objective C b.user b.item reg ≤ Spec.objective C a.user a.item reg) ∧
      ∀ m' ∈ trace, m'.user.length = m.user.length ∧ m'.item.length = m.item.length := by
  induction n generalizing m with
  | zero => exact ⟨[], rfl, rfl, by simp, by simp⟩
  | succ n ih =>
    obtain ⟨m', e, hl1, hl2, hle⟩ := C13_iteration S tol p hreg C m hC hv
    obtain ⟨trace, et, hlen, hpw, hsh⟩ := ih m' (by omega) (by rw [hl2]; exact hv)
    refine ⟨m' :: trace, ?_, by simp [hlen], ?_, ?_⟩
    · unfold alsTrace
      rw [e]
      simp only [bind, Except.bind]
      rw [hl2] at et
      rw [et]
      rfl
    · rw [List.pairwise_cons]
      refine ⟨?_, hpw⟩
      intro b hb
      rcases List.mem_cons.mp hb with rfl | hb
      · exact hle
      · exact ((List.pairwise_cons.mp hpw).1 b hb).trans hle
    · intro b hb
      rcases List.mem_cons.mp hb with rfl | hb
      · exact ⟨hl1, hl2⟩
      · have := hsh b hb; exact ⟨by omega, by omega⟩

/-- **C13** for the numbers reported when `calculate_training_loss` is set: they exist for every
iteration and never increase (also with negative entries, where they are shifted by a constant, see
C12). -/
theorem C13_reported_loss (S : Solver f R) (tol : R) (p : ALSParams R) {reg : R} (hreg : 0 < reg)
    (C : SpRows R) (n : Nat) (m : Factors f R) (hC : C.length = m.user.length)
    (hv : ∀ row ∈ C, ValidRow m.item.length row)
    (htot : 0 < Spec.totalConfidence C m.user.length m.item.length) :
    ∃ trace losses,
      alsTrace (alsSolver S tol p) C (transposeRows m.item.length C) reg n m = .ok trace ∧
      (trace.mapM fun m' => calculateLoss C m.item.length m'.user m'.item reg) = .ok losses ∧
      losses.length = n ∧ losses.Pairwise (fun a b => b ≤ a) := by
  obtain ⟨trace, e, hlen, hpw, hsh⟩ := C13_training S tol p hreg C n m hC hv
  have hloss : ∀ m' ∈ trace, calculateLoss C m.item.length m'.user m'.item reg =
      .ok ((Spec.objective C m'.user m'.item reg + negativeWeight C) /
        Spec.totalConfidence C m.user.length m.item.length) := by
    intro m' hm'
    obtain ⟨h1, h2⟩ := hsh m' hm'
    rw [← h2, ← h1]
    exact C12_loss_value C m'.user m'.item (by omega) (by rw [h2]; exact hv) reg
  refine ⟨trace, _, e, mapM_ok_of hloss, by simp [hlen], ?_⟩
  rw [List.pairwise_map]
  refine (List.pairwise_cons.mp hpw).2.imp ?_
  intro a b hab
  exact div_le_div_of_nonneg_right (by linarith) htot.le

/-- The hypotheses can be met: two users, two items, positive and negative values, an empty row. -/
example : ∃ trace, alsTrace (alsSolver (exactSolver 2 Rat) (1 / 10 ^ 20)
      ⟨1 / 100, 1, true, true, 3, 15⟩) [[(0, 3), (1, -2)], []]
      (transposeRows 2 [[(0, 3), (1, -2)], []]) (1 / 100) 15
      ⟨[![1, 2], ![3, 4]], [![1, 0], ![0, 1]]⟩ = .ok trace ∧ trace.length = 15 := by
  obtain ⟨trace, e, hl, _⟩ := C13_training (exactSolver 2 Rat) (1 / 10 ^ 20)
    ⟨1 / 100, 1, true, true, 3, 15⟩ (reg := 1 / 100) (by norm_num) [[(0, 3), (1, -2)], []] 15
    ⟨[![1, 2], ![3, 4]], [![1, 0], ![0, 1]]⟩ rfl (by
      intro row hrow
      simp only [List.mem_cons, List.not_mem_nil, or_false] at hrow
      rcases hrow with rfl | rfl <;> exact ⟨by simp, by simp⟩)
  exact ⟨trace, e, hl⟩

end Implicit
