import Verif.Lemmas.RoundALS
import Verif.Props.C11
import Verif.Props.C62
/-!
# C90 — in floating point a recalculated ALS factor is right up to a stated error

Everything in `_least_squares` is rounded: the Gram matrix, the accumulation of the system of a row, and LAPACK's solution of it.
-/

set_option linter.unusedSectionVars false

namespace Implicit

open Spec (ValidRow)

variable {f : Nat}

theorem targetSize_eq (Y : List (Vec f ℝ)) (row : List (Nat × ℝ)) :
    ((row.map fun e => ((Y[e.1]?.getD 0 : Vec f ℝ), e.2)).map fun e => gain e.2 * Spec.length e.1).sum = Spec.targetSize Y row := by
  rw [List.map_map]
  rfl

theorem traceSize_eq (Y : List (Vec f ℝ)) (row : List (Nat × ℝ)) (reg : ℝ) :
    traceSize Y reg (row.map fun e => ((Y[e.1]?.getD 0 : Vec f ℝ), e.2)) = Spec.systemSize Y row reg := by
  unfold traceSize Spec.systemSize
  rw [List.map_map]
  rfl

section
variable {A : FloatOps ℝ} {u : ℝ} (hA : A.Accurate u) (r : Rounding ℝ) (hr : r.u = u) (h0 : r.η = 0) {κ : ℝ}
  {posv : Mat f ℝ → Vec f ℝ → Option (Vec f ℝ)} (hp : StableSolver κ posv) (Y : List (Vec f ℝ))
  (order : Fin f → Fin f → SumTree Y.length) (ho : ∀ a b, (order a b).Complete) {reg : ℝ} (hreg : 0 < reg) (row : List (Nat × ℝ))
  (hrow : ValidRow Y.length row)

include hA hr h0 hp ho hreg hrow

/-- **C90** (no error).  If the regularisation exceeds the rounding errors of the system, LAPACK reports no error. -/
theorem C90_solved (hsmall : (Spec.systemGrowth u Y.length row.length + κ * (1 + Spec.systemGrowth u Y.length row.length)) *
      Spec.systemSize Y row reg < reg) : ∃ x, roundLeastSquaresRow A r posv Y order reg row = .ok x := by
  unfold roundLeastSquaresRow FloatOps.leastSquaresRow
  split_ifs with he
  · exact ⟨_, rfl⟩
  rw [rowEntries_eq hrow.lt]
  obtain ⟨S, hS⟩ : ∃ S, S = (row.map fun e => ((Y[e.1]?.getD 0 : Vec f ℝ), e.2)).foldl A.accumulate
    (A.regularised (roundGram r Y order) reg, fun _ => A.zero) := ⟨_, rfl⟩
  obtain ⟨hM, -⟩ := near_system hA r hr h0 Y order ho reg _ hS
  rw [List.length_map] at hM
  obtain ⟨x, hx⟩ := hp.solves S.1 S.2 (lowerPart_coercive (one_le_growth hA.nonneg _) hp.nonneg hreg.le hM
    (linearEquation_coercive Y row hrow.nodup hrow.lt reg) (by
      rw [traceSize_eq]
      unfold Spec.systemGrowth at hsmall
      rwa [add_sub_cancel] at hsmall))
  refine ⟨x, ?_⟩
  rw [hS] at hx
  simp only [bind, Except.bind, hx]
  rfl

variable {x : Vec f ℝ} (hx : roundLeastSquaresRow A r posv Y order reg row = .ok x)

include hx

/-- **C90** (normal equations).  The computed vector satisfies the normal equations of the dense problem up to `rowResidual`. -/
theorem C90_residual : Spec.length (Spec.residual Y row reg x) ≤ Spec.rowResidual u κ Y row reg x := by
  rw [residual_eq Y row hrow]
  unfold roundLeastSquaresRow FloatOps.leastSquaresRow at hx
  split_ifs at hx with he
  · rw [List.isEmpty_iff] at he
    subst he
    injection hx with hx
    have hx0 : x = 0 := by rw [← hx, hA.zero]; rfl
    subst hx0
    have e : (linearEquation (gram Y) reg (([] : List (Nat × ℝ)).map fun e => ((Y[e.1]?.getD 0 : Vec f ℝ), e.2))).2 -
        mulVec (linearEquation (gram Y) reg (([] : List (Nat × ℝ)).map fun e => ((Y[e.1]?.getD 0 : Vec f ℝ), e.2))).1 0 = 0 := by
      rw [mulVec_zero, sub_zero]
      funext a
      rw [linearEquation_snd]
      rfl
    rw [e, length_zero]
    unfold Spec.rowResidual Spec.targetSize
    simp [length_zero]
  · rw [rowEntries_eq hrow.lt] at hx
    obtain ⟨S, hS⟩ : ∃ S, S = (row.map fun e => ((Y[e.1]?.getD 0 : Vec f ℝ), e.2)).foldl A.accumulate
      (A.regularised (roundGram r Y order) reg, fun _ => A.zero) := ⟨_, rfl⟩
    obtain ⟨hM, hB⟩ := near_system hA r hr h0 Y order ho reg _ hS
    have hpv : posv S.1 S.2 = some x := by
      simp only [bind, Except.bind, ← hS] at hx
      cases h : posv S.1 S.2 with
      | none => rw [h] at hx; cases hx
      | some z => rw [h] at hx; injection hx with hx; rw [hx]
    have := length_residual (one_le_growth hA.nonneg _) hp.nonneg hreg.le hM hB (hp.residual _ _ _ hpv)
    rw [List.length_map, targetSize_eq, traceSize_eq] at this
    unfold Spec.rowResidual Spec.systemGrowth
    dsimp only
    rwa [add_sub_cancel]

/-- **C90** (factor).  The computed vector is close to the one and only optimum. -/
theorem C90_factor {z : Vec f ℝ} (hz : Spec.NormalEquations Y row reg z) :
    Spec.length (x - z) ≤ Spec.rowResidual u κ Y row reg x / reg := by
  have h := C90_residual hA r hr h0 hp Y order ho hreg row hrow hx
  rw [residual_eq Y row hrow] at h
  exact (stable_solution hreg (linearEquation_coercive Y row hrow.nodup hrow.lt reg) ((normalEquations_iff Y row hrow reg z).mp hz) h).1

/-- **C90** (loss).  The loss of the computed vector exceeds that of any other vector by at most the square of the residual over the
regularisation. -/
theorem C90_loss (z : Vec f ℝ) :
    Spec.rowLoss Y row reg x ≤ Spec.rowLoss Y row reg z + Spec.rowResidual u κ Y row reg x ^ 2 / reg := by
  have h := C90_residual hA r hr h0 hp Y order ho hreg row hrow hx
  rw [residual_eq Y row hrow] at h
  have hpd := linearEquation_posDef Y row hrow.nodup hrow.lt hreg
  obtain ⟨s, hs⟩ := posDef_solvable hpd (linearEquation (gram Y) reg (row.map fun e => (Y[e.1]?.getD 0, e.2))).2
  have h1 := (stable_solution hreg (linearEquation_coercive Y row hrow.nodup hrow.lt reg) hs h).2
  have h2 := quad_eq hpd.symm hs x
  have h3 := quad_le hpd hs z
  rw [rowLoss_eq Y row hrow.nodup hrow.lt, rowLoss_eq Y row hrow.nodup hrow.lt]
  linarith

/-- **C90** (recommendations).  `recommend(…, recalculate_user=True)` in floating point: the list is right, for the scores of the
optimal user factor in exact arithmetic, up to the error of the scores and that of the factor. -/
theorem C90_recommend {z : Vec f ℝ} (hz : Spec.NormalEquations Y row reg z) {n : Nat} (items : Fin n → Vec f ℝ)
    (sums : Fin n → SumTree f) (hs : ∀ j, (sums j).Complete) (lowest : ℝ) (filter : List (Fin n)) (k : Nat) (hk : 1 ≤ k)
    (hlow : ∀ j, j ∉ filter → lowest < (sums j).eval r x (items j))
    (hmany : k ≤ ((List.finRange n).filter fun j => j ∉ filter).length) :
    ∃ out, roundRecommend r sums lowest filter k x items = .ok out ∧
      Spec.ApproxTop k (fun j => j ∉ filter) (fun j => dot z (items j))
        (fun j => Spec.scoreError u 0 x (items j) + Spec.rowResidual u κ Y row reg x / reg * Spec.length (items j)) out := by
  have hf := C90_factor hA r hr h0 hp Y order ho hreg row hrow hx hz
  obtain ⟨out, h1, h2, -⟩ := roundSelect_approx (computed := roundScores r sums x items) (score := fun j => dot z (items j))
    (ε := fun j => Spec.scoreError u 0 x (items j) + Spec.rowResidual u κ Y row reg x / reg * Spec.length (items j))
    (fun j => by
      have e1 := C62_score r (sums j) (hs j) x (items j)
      rw [hr, h0] at e1
      have e2 := (abs_dot_le_length (x - z) (items j)).trans (mul_le_mul_of_nonneg_right hf (length_nonneg _))
      rw [dot_sub_left] at e2
      have e3 := abs_add_le ((sums j).eval r x (items j) - dot x (items j)) (dot x (items j) - dot z (items j))
      rw [sub_add_sub_cancel] at e3
      exact e3.trans (add_le_add e1 e2)) lowest filter k hk hlow hmany
  exact ⟨out, h1, h2⟩

end

/-- **C90** (in advance).  The error in terms of the exact optimum `z`: if the regularisation exceeds the rounding errors `δ` of the
system, a vector is computed, and its distance from the optimum is at most `(δ ‖z‖ + g ‖b‖) / (reg - δ)`. -/
theorem C90_total {A : FloatOps ℝ} {u : ℝ} (hA : A.Accurate u) (r : Rounding ℝ) (hr : r.u = u) (h0 : r.η = 0) {κ : ℝ}
    {posv : Mat f ℝ → Vec f ℝ → Option (Vec f ℝ)} (hp : StableSolver κ posv) (Y : List (Vec f ℝ))
    (order : Fin f → Fin f → SumTree Y.length) (ho : ∀ a b, (order a b).Complete) {reg : ℝ} (hreg : 0 < reg)
    (row : List (Nat × ℝ)) (hrow : ValidRow Y.length row) {z : Vec f ℝ} (hz : Spec.NormalEquations Y row reg z) {g δ : ℝ}
    (hg : g = Spec.systemGrowth u Y.length row.length) (hδ : δ = (g + κ * (1 + g)) * Spec.systemSize Y row reg) (hsmall : δ < reg) :
    ∃ x, roundLeastSquaresRow A r posv Y order reg row = .ok x ∧
      Spec.length (x - z) ≤ (δ * Spec.length z + g * Spec.targetSize Y row) / (reg - δ) := by
  have hpos : 0 < reg - δ := by linarith
  obtain ⟨x, hx⟩ := C90_solved hA r hr h0 hp Y order ho hreg row hrow (by rw [← hg, ← hδ]; exact hsmall)
  refine ⟨x, hx, ?_⟩
  have h1 := C90_factor hA r hr h0 hp Y order ho hreg row hrow hx hz
  unfold Spec.rowResidual at h1
  dsimp only at h1
  rw [← hg, ← hδ, le_div_iff₀ hreg] at h1
  have hδ0 : 0 ≤ δ := by
    have hg0 : 0 ≤ g := by
      rw [hg]
      unfold Spec.systemGrowth
      linarith [one_le_growth hA.nonneg (Y.length + row.length + 5)]
    rw [hδ]
    refine mul_nonneg (add_nonneg hg0 (mul_nonneg hp.nonneg (by linarith))) ?_
    unfold Spec.systemSize
    refine add_nonneg (add_nonneg (by positivity) (List.sum_nonneg ?_)) (List.sum_nonneg ?_)
    · intro a ha
      obtain ⟨y, -, rfl⟩ := List.mem_map.mp ha
      positivity
    · intro a ha
      obtain ⟨e, -, rfl⟩ := List.mem_map.mp ha
      positivity
  have h2 : Spec.length x ≤ Spec.length (x - z) + Spec.length z := by
    have := length_add_le (x - z) z
    rwa [sub_add_cancel] at this
  have h3 := mul_le_mul_of_nonneg_left h2 hδ0
  rw [le_div_iff₀ hpos]
  linarith

/-! ## The assumptions can be met -/

theorem rnd_relative (r : Rounding ℝ) (h0 : r.η = 0) (x : ℝ) : |r.rnd x - x| ≤ r.u * |x| := by
  have := r.err x
  rw [h0, add_zero] at this
  exact this

/-- Rounding each operation, with or without fused multiply-add. -/
theorem roundOps_accurate (r : Rounding ℝ) (h0 : r.η = 0) (fused : Bool) : (roundOps r fused).Accurate r.u where
  nonneg := r.u_nonneg
  zero := rfl
  one := rfl
  add a b := rnd_relative r h0 _
  sub a b := rnd_relative r h0 _
  mul a b := rnd_relative r h0 _
  lt a b := by simp [roundOps]
  axpy t y s := by
    cases fused
    · exact ⟨r.rnd (t * y), rnd_relative r h0 _, rnd_relative r h0 _⟩
    · refine ⟨t * y, ?_, rnd_relative r h0 _⟩
      simpa using mul_nonneg r.u_nonneg (abs_nonneg (t * y))

/-- A solver that reads the lower triangle and makes no error. -/
noncomputable def triangleSolver (f : Nat) (A : Mat f ℝ) (b : Vec f ℝ) : Option (Vec f ℝ) := (exactSolver f ℝ).solve (lowerPart A) b

theorem lowerPart_symm (A : Mat f ℝ) (a b : Fin f) : lowerPart A a b = lowerPart A b a := by
  unfold lowerPart
  rcases lt_trichotomy a b with h | h | h
  · rw [if_neg (not_le.mpr h), if_pos h.le]
  · rw [h]
  · rw [if_pos h.le, if_neg (not_le.mpr h)]

theorem triangleSolver_stable (f : Nat) : StableSolver 0 (triangleSolver f) where
  nonneg := le_rfl
  solves A b h := by
    have hpd : PosDef (lowerPart A) := ⟨lowerPart_symm A, fun x hx => by simpa using h x hx⟩
    obtain ⟨x, hx, -⟩ := (exactSolver f ℝ).spec _ b hpd
    exact ⟨x, hx⟩
  residual A b x h := by
    unfold triangleSolver exactSolver at h
    dsimp only at h
    split_ifs at h with hpd
    have hb := (posDef_solvable hpd b).choose_spec
    injection h with h
    rw [h] at hb
    rw [hb, sub_self, length_zero]
    simp

/-- A user who likes the first of two items with confidence 3 and dislikes the second with confidence 2, with one factor and in
single precision: the factor is `1/4` up to `10⁻⁵`. -/
theorem round_row_example : ∃ x, roundLeastSquaresRow (roundOps (freeFloat 24) true) (freeFloat 24) (triangleSolver 1) [fun _ => 1, fun _ => 2]
      (fun _ _ => .add (.leaf 1) (.leaf 0)) 1 [(0, 3), (1, -2)] = .ok x ∧
    Spec.length (x - fun _ => 1 / 4) ≤ 1 / 100000 := by
  have hl : ∀ c : ℝ, Spec.length (fun _ : Fin 1 => c) ^ 2 = c ^ 2 := fun c => by rw [length_sq_sum]; simp
  have hl1 : ∀ c : ℝ, 0 ≤ c → Spec.length (fun _ : Fin 1 => c) = c := fun c hc => by
    unfold Spec.length
    simp [Real.sqrt_sq hc]
  have hT : Spec.systemSize [fun _ : Fin 1 => (1 : ℝ), fun _ => 2] [(0, 3), (1, -2)] 1 = 22 := by
    unfold Spec.systemSize
    simp [hl]
    norm_num
  have hB : Spec.targetSize [fun _ : Fin 1 => (1 : ℝ), fun _ => 2] [(0, 3), (1, -2)] = 3 := by
    unfold Spec.targetSize
    simp [hl1]
  obtain ⟨x, h1, h2⟩ := C90_total (roundOps_accurate (freeFloat 24) rfl true) (freeFloat 24) rfl rfl (triangleSolver_stable 1)
    [fun _ => 1, fun _ => 2] (fun _ _ => .add (.leaf 1) (.leaf 0))
    (fun _ _ => by unfold SumTree.Complete; decide) one_pos [(0, 3), (1, -2)] ⟨by simp, by simp⟩ (z := fun _ => 1 / 4)
    (by
      intro a
      have h1 : List.lookup 1 [(0, (3 : ℝ)), (1, -2)] = some (-2) := rfl
      simp [Spec.confidence, Spec.preference, Fin.sum_univ_succ, h1]
      norm_num) rfl rfl (by
      rw [hT]
      unfold Spec.systemGrowth freeFloat
      norm_num)
  refine ⟨x, h1, h2.trans ?_⟩
  rw [hT, hB, hl1 _ (by norm_num)]
  unfold Spec.systemGrowth freeFloat
  norm_num

example : ∃ x, roundLeastSquaresRow (roundOps (freeFloat 24) true) (freeFloat 24) (triangleSolver 1) [fun _ => 1, fun _ => 2]
      (fun _ _ => .add (.leaf 1) (.leaf 0)) 1 [(0, 3), (1, -2)] = .ok x ∧
    Spec.length (x - fun _ => 1 / 4) ≤ 1 / 100000 := round_row_example

end Implicit
