import Verif.Lemmas.Solver
import Verif.Lemmas.Recommend

/-!
# C11 — each ALS update is the unique optimum of the weighted regularised problem
-/

namespace Implicit

variable {R : Type} [LinearOrder R] [Field R] [IsStrictOrderedRing R] {f : Nat}

open Spec (ValidRow)

/-- The dense residual is that of the linear system built by the code. -/
theorem residual_eq (Y : List (Vec f R)) (row : List (Nat × R)) (h : ValidRow Y.length row)
    (reg : R) (x : Vec f R) :
    Spec.residual Y row reg x =
      (linearEquation (gram Y) reg (row.map fun e => (Y[e.1]?.getD 0, e.2))).2 -
      mulVec (linearEquation (gram Y) reg (row.map fun e => (Y[e.1]?.getD 0, e.2))).1 x := by
  funext a
  unfold Spec.residual
  rw [Pi.sub_apply]
  set g : Nat → Option R → R := fun i o =>
    (match o with | none => 1 | some c => |c|) * dot x (Y[i]?.getD 0) * (Y[i]?.getD 0 : Vec f R) a
    with hg
  set g' : Nat → Option R → R := fun i o =>
    (match o with | none => 1 | some c => |c|) *
      (match o with | none => 0 | some c => if 0 < c then 1 else 0) * (Y[i]?.getD 0 : Vec f R) a
    with hg'
  have h1 : (∑ i : Fin Y.length, Spec.confidence row i * (∑ j, x j * Y[i] j) * Y[i] a) =
      mulVec (gram Y) x a + ((row.map fun e => ((Y[e.1]?.getD 0 : Vec f R), e.2)).map fun e =>
        (conf e.2 - 1) * dot e.1 x * e.1 a).sum := by
    have : (∑ i : Fin Y.length, Spec.confidence row i * (∑ j, x j * Y[i] j) * Y[i] a) =
        ∑ i : Fin Y.length, g i (row.lookup i.1) := by
      refine Finset.sum_congr rfl (fun i _ => ?_)
      simp only [hg, Spec.confidence]
      rw [List.getElem?_eq_getElem i.2]
      rfl
    rw [this, sum_lookup row h.nodup h.lt, mulVec_gram, ← sum_fin_getElem]
    congr 1
    · refine Finset.sum_congr rfl (fun i _ => ?_)
      simp only [hg]
      rw [List.getElem?_eq_getElem i.2, dot_comm x]
      simp
    · rw [List.map_map]
      congr 1
      refine List.map_congr_left (fun e _ => ?_)
      simp only [hg, Function.comp, conf_eq_abs, dot_comm x]
      ring
  have h2 : (∑ i : Fin Y.length, Spec.confidence row i * Spec.preference row i * Y[i] a) =
      (linearEquation (gram Y) reg (row.map fun e => (Y[e.1]?.getD 0, e.2))).2 a := by
    have : (∑ i : Fin Y.length, Spec.confidence row i * Spec.preference row i * Y[i] a) =
        ∑ i : Fin Y.length, g' i (row.lookup i.1) := by
      refine Finset.sum_congr rfl (fun i _ => ?_)
      simp only [hg', Spec.confidence, Spec.preference]
      rw [List.getElem?_eq_getElem i.2]
      rfl
    rw [this, sum_lookup row h.nodup h.lt, linearEquation_snd, List.map_map]
    have h0 : ∑ i : Fin Y.length, g' i none = 0 := by
      refine Finset.sum_eq_zero (fun i _ => ?_)
      simp [hg']
    rw [h0, zero_add]
    congr 1
    refine List.map_congr_left (fun e _ => ?_)
    simp only [hg', Function.comp, gain]
    split_ifs with hc
    · rw [abs_of_pos hc]; ring
    · ring
  rw [h1, h2, mulVec_linearEquation]
  ring

/-- The dense normal equations are the linear system built by the code. -/
theorem normalEquations_iff (Y : List (Vec f R)) (row : List (Nat × R)) (h : ValidRow Y.length row)
    (reg : R) (x : Vec f R) :
    Spec.NormalEquations Y row reg x ↔
      mulVec (linearEquation (gram Y) reg (row.map fun e => (Y[e.1]?.getD 0, e.2))).1 x =
        (linearEquation (gram Y) reg (row.map fun e => (Y[e.1]?.getD 0, e.2))).2 := by
  have h1 : Spec.NormalEquations Y row reg x ↔ Spec.residual Y row reg x = 0 := by
    rw [funext_iff]
    refine forall_congr' (fun a => ?_)
    unfold Spec.residual
    rw [Pi.zero_apply, sub_eq_zero, eq_comm]
  rw [h1, residual_eq Y row h, sub_eq_zero, eq_comm]

/-- A solution of the code's system is the unique optimum of the dense problem. -/
theorem isOptimum_of_solves (Y : List (Vec f R)) (row : List (Nat × R)) (h : ValidRow Y.length row)
    {reg : R} (hreg : 0 < reg) {x : Vec f R}
    (hx : mulVec (linearEquation (gram Y) reg (row.map fun e => (Y[e.1]?.getD 0, e.2))).1 x =
        (linearEquation (gram Y) reg (row.map fun e => (Y[e.1]?.getD 0, e.2))).2) :
    Spec.IsOptimum Y row reg x := by
  intro z hz
  rw [rowLoss_eq Y row h.nodup h.lt, rowLoss_eq Y row h.nodup h.lt]
  have := quad_lt (linearEquation_posDef Y row h.nodup h.lt hreg) hx hz
  linarith

/-- **C11** for one row of the native direct solver: it returns (no error), and the result solves the
dense normal equations and is the one and only minimiser of the dense weighted regularised loss.  This
includes the shortcut taken for empty rows. -/
theorem C11_least_squares_row (S : Solver f R) (Y : List (Vec f R)) (row : List (Nat × R))
    (h : ValidRow Y.length row) {reg : R} (hreg : 0 < reg) :
    ∃ x, leastSquaresRow S (gram Y) Y reg row = .ok x ∧ Spec.NormalEquations Y row reg x ∧
      Spec.IsOptimum Y row reg x := by
  obtain ⟨x, hx, hs⟩ := S.spec _
    (linearEquation (gram Y) reg (row.map fun e => ((Y[e.1]?.getD 0 : Vec f R), e.2))).2
    (linearEquation_posDef Y row h.nodup h.lt hreg)
  cases row with
  | nil =>
    have h0 : mulVec (linearEquation (gram Y) reg []).1 (fun _ => 0) =
        (linearEquation (gram Y) reg []).2 := by
      funext a
      rw [linearEquation_snd]
      exact dot_zero_right _
    exact ⟨fun _ => 0, rfl, (normalEquations_iff Y [] h reg _).mpr h0,
      isOptimum_of_solves Y [] h hreg h0⟩
  | cons e row =>
    refine ⟨x, ?_, (normalEquations_iff Y _ h reg x).mpr hs, isOptimum_of_solves Y _ h hreg hs⟩
    unfold leastSquaresRow
    rw [rowEntries_eq h.lt]
    simp only [List.isEmpty_cons, Bool.false_eq_true, if_false, bind, Except.bind]
    rw [hx]
    rfl

/-- **C11** for one row of the python direct solver. -/
theorem C11_least_squares_py_row (S : Solver f R) (Y : List (Vec f R)) (row : List (Nat × R))
    (h : ValidRow Y.length row) {reg : R} (hreg : 0 < reg) :
    ∃ x, leastSquaresPyRow S (gram Y) Y reg row = .ok x ∧ Spec.NormalEquations Y row reg x ∧
      Spec.IsOptimum Y row reg x := by
  obtain ⟨x, hx, hs⟩ := S.spec _
    (linearEquation (gram Y) reg (row.map fun e => ((Y[e.1]?.getD 0 : Vec f R), e.2))).2
    (linearEquation_posDef Y row h.nodup h.lt hreg)
  refine ⟨x, ?_, (normalEquations_iff Y _ h reg x).mpr hs, isOptimum_of_solves Y _ h hreg hs⟩
  unfold leastSquaresPyRow
  rw [rowEntries_eq h.lt]
  simp only [bind, Except.bind]
  rw [hx]
  rfl

private theorem sweep (users : Nat) (C : SpRows R) (Y : List (Vec f R)) (hC : users ≤ C.length)
    (hv : ∀ row ∈ C, ValidRow Y.length row) (reg : R) (err : Err)
    (g : List (Nat × R) → Except Err (Vec f R))
    (hg : ∀ row, ValidRow Y.length row → ∃ x, g row = .ok x ∧ Spec.NormalEquations Y row reg x ∧
      Spec.IsOptimum Y row reg x) :
    ∃ X', ((List.range users).mapM fun u =>
        match C[u]? with
        | none => Except.error err
        | some row => g row) = .ok X' ∧ X'.length = users ∧
      ∀ (u : Nat) x row, X'[u]? = some x → C[u]? = some row →
        Spec.NormalEquations Y row reg x ∧ Spec.IsOptimum Y row reg x := by
  have hrow : ∀ u, u ∈ List.range users → ∃ x, (match C[u]? with
        | none => Except.error err
        | some row => g row) = .ok x := by
    intro u hu
    have hu' : u < C.length := by have := List.mem_range.mp hu; omega
    rw [List.getElem?_eq_getElem hu']
    obtain ⟨x, e, _⟩ := hg _ (hv _ (List.getElem_mem hu'))
    exact ⟨x, e⟩
  choose! x hx using hrow
  refine ⟨(List.range users).map x, mapM_ok_of hx, by simp, ?_⟩
  intro u y row hy hr
  have hu : u < users := by
    have := (List.getElem?_eq_some_iff.mp hy).1; simpa using this
  have h1 := hx u (List.mem_range.mpr hu)
  rw [hr] at h1
  obtain ⟨x', e, h2⟩ := hg row (hv _ (List.mem_of_getElem? hr))
  have h1' : g row = .ok (x u) := h1
  rw [e] at h1'
  cases h1'
  simp [hu] at hy
  rw [← hy]; exact h2

/-- **C11** for a whole sweep of the native solver `least_squares(Cui, X, Y, regularization)`: it
returns, keeps the number of rows, and every row of the result is the unique optimum for its row of
the interaction matrix — independently of the previous content of `X`. -/
theorem C11_least_squares (S : Solver f R) (C : SpRows R) (X Y : List (Vec f R))
    (hC : X.length ≤ C.length) (hv : ∀ row ∈ C, ValidRow Y.length row) {reg : R} (hreg : 0 < reg) :
    ∃ X', leastSquares S C X Y reg = .ok X' ∧ X'.length = X.length ∧
      ∀ (u : Nat) x row, X'[u]? = some x → C[u]? = some row →
        Spec.NormalEquations Y row reg x ∧ Spec.IsOptimum Y row reg x :=
  sweep X.length C Y hC hv reg _ _ fun row h => C11_least_squares_row S Y row h hreg

/-- **C11** for a whole sweep of the python solver. -/
theorem C11_least_squares_py (S : Solver f R) (C : SpRows R) (X Y : List (Vec f R))
    (hC : X.length ≤ C.length) (hv : ∀ row ∈ C, ValidRow Y.length row) {reg : R} (hreg : 0 < reg) :
    ∃ X', leastSquaresPy S C X Y reg = .ok X' ∧ X'.length = X.length ∧
      ∀ (u : Nat) x row, X'[u]? = some x → C[u]? = some row →
        Spec.NormalEquations Y row reg x ∧ Spec.IsOptimum Y row reg x :=
  sweep X.length C Y hC hv reg _ _ fun row h => C11_least_squares_py_row S Y row h hreg

/-- The hypotheses can be met: two items, a positive, a negative and a zero entry. -/
example : ∃ X', leastSquares (exactSolver 2 Rat) [[(1, 3), (0, -2)], [], [(0, 0)]]
    [0, 0, 0] [![1, 2], ![0, 1]] (1 / 2) = .ok X' ∧ X'.length = 3 := by
  obtain ⟨X', e, hl, _⟩ := C11_least_squares (exactSolver 2 Rat) [[(1, 3), (0, -2)], [], [(0, 0)]]
    [0, 0, 0] [![1, 2], ![0, 1]] (by simp) (by
      intro row hrow
      simp only [List.mem_cons, List.not_mem_nil, or_false] at hrow
      rcases hrow with rfl | rfl | rfl <;> exact ⟨by simp, by simp⟩) (reg := 1 / 2) (by norm_num)
  exact ⟨X', e, hl⟩

/-- The optimum of a concrete one-factor problem: item factors 1 and 2, confidence 3 for the first
item; the minimiser is `3 / (3 + 4 + 1)`. -/
example : leastSquaresRow (exactSolver 1 Rat) (gram [![1], ![2]]) [![1], ![2]] 1 [(0, 3)] =
    .ok ![3 / 8] := by
  obtain ⟨x, e, hn, _⟩ := C11_least_squares_row (exactSolver 1 Rat) [![1], ![2]] [(0, 3)]
    ⟨by simp, by simp⟩ (reg := 1) (by norm_num)
  rw [e]
  have h0 := hn 0
  simp [Spec.confidence, Spec.preference, Fin.sum_univ_succ, List.lookup] at h0
  congr 1
  funext i
  fin_cases i
  simp
  linarith

end Implicit
