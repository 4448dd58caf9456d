import Verif.Lemmas.RoundCG
import Verif.Props.C13
import Verif.Props.C90Sweep
/-!
# C91 — in floating point the conjugate gradient solver knows how good its factors are

`_least_squares_cg`, the solver `fit` uses unless told otherwise, keeps the residual of its factor up to date instead of computing it
anew.  All operations are rounded; nothing is assumed of the quotients `alpha` and `rsnew / rsold`.
-/

set_option linter.unusedSectionVars false

namespace Implicit

open Spec (ValidRow)

variable {f : Nat}

section
variable {A : FloatOps ℝ} {P : BlasProducts f} {u : ℝ} (hA : A.Accurate u) (hP : P.Accurate u) (r : Rounding ℝ) (hr : r.u = u)
  (h0 : r.η = 0) (Y : List (Vec f ℝ)) (order : Fin f → Fin f → SumTree Y.length) (ho : ∀ a b, (order a b).Complete) {reg : ℝ}
  (hreg : 0 < reg) (row : List (Nat × ℝ)) (hrow : ValidRow Y.length row) (hsmall : (1 + u) ^ (f + 2) ≤ 3 / 2) (tol : ℝ) (steps : Nat)
  (x₀ : Vec f ℝ)

include hrow in
/-- A row always gives a factor. -/
theorem C91_returns : ∃ e, roundCgRow A P r tol steps Y order reg row x₀ = .ok e := by
  unfold roundCgRow
  split_ifs
  · exact ⟨_, rfl⟩
  · rw [rowEntries_eq hrow.lt]
    exact ⟨_, rfl⟩

variable {e : CgEnd f} (he : roundCgRow A P r tol steps Y order reg row x₀ = .ok e)

include he

/-- **C91** (more rounds).  Once the tolerance is met, a larger `cg_steps` gives the same factor. -/
theorem C91_more_rounds (hc : e.converged = true) (k : Nat) : roundCgRow A P r tol (steps + k) Y order reg row x₀ = .ok e := by
  unfold roundCgRow at he ⊢
  split_ifs at he ⊢ with hrow
  · exact he
  · cases hes : rowEntries .undefinedBehaviour Y row with
    | error err => rw [hes] at he; cases he
    | ok es =>
      rw [hes] at he
      injection he with he
      refine congrArg Except.ok ?_
      rw [← he] at hc ⊢
      unfold roundCgSolve at hc ⊢
      dsimp only at hc ⊢
      split_ifs at hc ⊢
      · rfl
      · exact loop_more _ _ _ hc

include hA hP hr h0 ho hreg hrow hsmall

/-- **C91** (residual).  The residual the solver maintains is that of the dense problem, up to `cgError`. -/
theorem C91_residual {X : ℝ} (hX : ∀ j ≤ steps, ∀ e', roundCgRow A P r tol j Y order reg row x₀ = .ok e' → Spec.length e'.x ≤ X) :
    Spec.length (Spec.residual Y row reg e.x - e.r) ≤ Spec.cgError u steps Y row reg X := by
  have hX0 : 0 ≤ X := (length_nonneg _).trans (hX steps le_rfl e he)
  have hhalf : (1 + u) ^ 2 ≤ 3 / 2 := (growth_mono hA.nonneg (by omega)).trans hsmall
  rw [residual_eq Y row hrow]
  by_cases hempty : row.isEmpty = true
  · unfold roundCgRow at he
    rw [if_pos hempty] at he
    rw [List.isEmpty_iff] at hempty
    subst hempty
    injection he with he
    subst he
    have e : (linearEquation (gram Y) reg (([] : List (Nat × ℝ)).map fun e => ((Y[e.1]?.getD 0 : Vec f ℝ), e.2))).2 -
        mulVec (linearEquation (gram Y) reg (([] : List (Nat × ℝ)).map fun e => ((Y[e.1]?.getD 0 : Vec f ℝ), e.2))).1 0 = 0 := by
      rw [mulVec_zero, sub_zero]
      funext a
      rw [linearEquation_snd]
      rfl
    have hz : (fun _ : Fin f => A.zero) = 0 := by rw [hA.zero]; rfl
    dsimp only
    rw [hz, e, sub_zero, length_zero]
    unfold Spec.cgError
    refine mul_nonneg (mul_nonneg (mul_nonneg (by positivity) (pow_nonneg (by linarith [hA.nonneg]) _)) ?_) ?_
    · linarith [one_le_growth hA.nonneg (Y.length + ([] : List (Nat × ℝ)).length + f + 12)]
    · rw [← traceSize_eq, ← trace_rowSize Y hreg.le]
      have h1 := (near_system hA r hr h0 Y order ho reg (([] : List (Nat × ℝ)).map fun e => ((Y[e.1]?.getD 0 : Vec f ℝ), e.2)) rfl).1
      have h2 := Finset.sum_nonneg fun (a : Fin f) (_ : a ∈ Finset.univ) => (h1 a a).nonneg
      unfold Spec.targetSize
      simp only [List.map_nil, List.sum_nil, add_zero] at h2 ⊢
      positivity
  · have hrun : ∀ j, roundCgRow A P r tol j Y order reg row x₀ =
        .ok (roundCgSolve A P (A.regularised (roundGram r Y order) reg) tol j (row.map fun e => (Y[e.1]?.getD 0, e.2)) x₀) := by
      intro j
      unfold roundCgRow
      rw [if_neg hempty, rowEntries_eq hrow.lt]
      rfl
    obtain ⟨es, hes⟩ : ∃ es, es = row.map fun e => ((Y[e.1]?.getD 0 : Vec f ℝ), e.2) := ⟨_, rfl⟩
    have hlen : es.length = row.length := by rw [hes, List.length_map]
    rw [← hes] at hrun ⊢
    have hT : traceSize Y reg es = Spec.systemSize Y row reg := by rw [hes, traceSize_eq]
    have hB : (es.map fun e => gain e.2 * Spec.length e.1).sum = Spec.targetSize Y row := by rw [hes, targetSize_eq]
    have hX' : ∀ j ≤ steps, Spec.length (roundCgSolve A P (A.regularised (roundGram r Y order) reg) tol j es x₀).x ≤ X :=
      fun j hj => hX j hj _ (hrun j)
    rw [hrun steps] at he
    injection he with he
    rw [← he]
    have hM := length_exact hA r hr h0 Y order ho hreg.le es
    have hb := length_rightSide hA (reg := reg) Y es
    have hAp := length_apply hA hP r hr h0 Y order ho hreg.le es
    have hst := length_start hA hP r hr h0 Y order ho hreg.le es x₀
    have hT0 : 0 ≤ traceSize Y reg es := by
      rw [← trace_rowSize Y hreg.le]
      exact Finset.sum_nonneg fun a _ => ((near_system hA r hr h0 Y order ho reg es rfl).1 a a).nonneg
    rw [hT] at hM hAp hst hT0
    rw [hB] at hb hst
    rw [hlen] at hAp hst
    have hB0 : 0 ≤ Spec.targetSize Y row := (length_nonneg _).trans hb
    obtain ⟨E, hE⟩ : ∃ E, E = ((1 + u) ^ (Y.length + row.length + f + 8 + 4) - 1) *
      (12 * Spec.systemSize Y row reg * X + Spec.targetSize Y row) := ⟨_, rfl⟩
    have hE0 : 0 ≤ E := by
      rw [hE]
      exact mul_nonneg (by linarith [one_le_growth hA.nonneg (Y.length + row.length + f + 8 + 4)])
        (add_nonneg (mul_nonneg (by linarith) hX0) hB0)
    have hcg : Spec.cgError u steps Y row reg X = (steps + 1) * (1 + u) ^ (4 * steps) * E := by
      unfold Spec.cgError
      rw [hE]
      ring
    -- the start
    have hx0 : Spec.length x₀ ≤ X := by
      have := hX' 0 (by omega)
      unfold roundCgSolve at this
      dsimp only at this
      split_ifs at this <;> exact this
    have hstart : cgGap (linearEquation (gram Y) reg es).1 (linearEquation (gram Y) reg es).2 x₀
        (roundCgResidual A P (A.regularised (roundGram r Y order) reg) es x₀) ≤ E := by
      unfold cgGap
      rw [← length_neg, neg_sub]
      refine hst.trans ?_
      rw [hE]
      refine mul_le_mul (by linarith [growth_mono hA.nonneg (show Y.length + row.length + f + 8 ≤ Y.length + row.length + f + 8 + 4 by omega)])
        (add_le_add_left ?_ _) (add_nonneg (mul_nonneg hT0 (length_nonneg _)) hB0)
        (by linarith [one_le_growth hA.nonneg (Y.length + row.length + f + 8 + 4)])
      have := mul_le_mul_of_nonneg_left hx0 hT0
      nlinarith [mul_nonneg hT0 hX0]
    rw [hcg]
    by_cases hc : A.lt (P.dot (roundCgResidual A P (A.regularised (roundGram r Y order) reg) es x₀)
        (roundCgResidual A P (A.regularised (roundGram r Y order) reg) es x₀)) tol = true
    · have e1 : roundCgSolve A P (A.regularised (roundGram r Y order) reg) tol steps es x₀ =
          ⟨x₀, roundCgResidual A P (A.regularised (roundGram r Y order) reg) es x₀, true⟩ := by
        unfold roundCgSolve
        exact if_pos hc
      rw [e1]
      refine hstart.trans ?_
      have h1 : (1 : ℝ) ≤ (steps + 1) * (1 + u) ^ (4 * steps) := by
        have := one_le_growth hA.nonneg (4 * steps)
        have h2 : (0 : ℝ) ≤ steps := by positivity
        nlinarith
      have := mul_le_mul_of_nonneg_right h1 hE0
      linarith
    · have e1 : ∀ j, roundCgSolve A P (A.regularised (roundGram r Y order) reg) tol j es x₀ =
          roundCgLoop A P (A.regularised (roundGram r Y order) reg) es tol j
            ⟨x₀, roundCgResidual A P (A.regularised (roundGram r Y order) reg) es x₀,
              roundCgResidual A P (A.regularised (roundGram r Y order) reg) es x₀,
              P.dot (roundCgResidual A P (A.regularised (roundGram r Y order) reg) es x₀)
                (roundCgResidual A P (A.regularised (roundGram r Y order) reg) es x₀)⟩ := by
        intro j
        unfold roundCgSolve
        exact if_neg hc
      have := gap_loop hA hhalf hM hb hT0 hX0 hAp hE steps 0
        ⟨x₀, roundCgResidual A P (A.regularised (roundGram r Y order) reg) es x₀,
          roundCgResidual A P (A.regularised (roundGram r Y order) reg) es x₀,
          P.dot (roundCgResidual A P (A.regularised (roundGram r Y order) reg) es x₀)
            (roundCgResidual A P (A.regularised (roundGram r Y order) reg) es x₀)⟩ (tol := tol) (by simpa using hstart)
        (fun j hj => by rw [← e1]; exact hX' j hj)
      rw [zero_add] at this
      rw [e1]
      exact this

omit hr h0 ho hreg in
/-- **C91** (when it stops).  The rounds end early exactly if the maintained residual is below the tolerance, up to the rounding of
one inner product. -/
theorem C91_stops : (e.converged = true → Spec.length e.r ^ 2 ≤ 2 * tol ∨ row = []) ∧
    (e.converged = false → tol ≤ 2 * Spec.length e.r ^ 2) := by
  have hnear : |P.dot e.r e.r - Spec.length e.r ^ 2| ≤ 1 / 2 * Spec.length e.r ^ 2 := by
    have h := hP.dot e.r e.r
    have h1 : ∑ i, |e.r i| * |e.r i| = Spec.length e.r ^ 2 := by
      rw [length_sq_sum]
      exact Finset.sum_congr rfl fun i _ => by rw [abs_mul_abs_self, sq]
    rw [h1, ← length_sq_dot] at h
    refine h.trans (mul_le_mul_of_nonneg_right ?_ (sq_nonneg _))
    have := growth_mono hA.nonneg (show f + 1 ≤ f + 2 by omega)
    linarith
  have hn := abs_le.mp hnear
  unfold roundCgRow at he
  split_ifs at he with hemp
  · injection he with he
    subst he
    exact ⟨fun _ => Or.inr (List.isEmpty_iff.mp hemp), fun h => by cases h⟩
  · rw [rowEntries_eq hrow.lt] at he
    injection he with he
    have hflag : e.converged = A.lt (P.dot e.r e.r) tol := by
      rw [← he]
      unfold roundCgSolve
      dsimp only
      split_ifs with hc
      · exact hc.symm
      · exact loop_flag _ _ rfl (by simpa using hc)
    rw [hflag]
    refine ⟨fun h => Or.inl ?_, fun h => ?_⟩
    · have := (hA.lt _ _).mp h
      linarith
    · have : ¬P.dot e.r e.r < tol := fun hc => by rw [(hA.lt _ _).mpr hc] at h; cases h
      have h2 := sq_nonneg (Spec.length e.r)
      linarith

variable {X : ℝ} (hX : ∀ j ≤ steps, ∀ e', roundCgRow A P r tol j Y order reg row x₀ = .ok e' → Spec.length e'.x ≤ X)

include hX

theorem cg_residual_le : Spec.length (Spec.residual Y row reg e.x) ≤ Spec.length e.r + Spec.cgError u steps Y row reg X := by
  have h := C91_residual hA hP r hr h0 Y order ho hreg row hrow hsmall tol steps x₀ he hX
  have := length_add_le (Spec.residual Y row reg e.x - e.r) e.r
  rw [sub_add_cancel] at this
  linarith

/-- **C91** (factor).  The distance from the one and only optimum. -/
theorem C91_factor {z : Vec f ℝ} (hz : Spec.NormalEquations Y row reg z) :
    Spec.length (e.x - z) ≤ (Spec.length e.r + Spec.cgError u steps Y row reg X) / reg := by
  have h := cg_residual_le hA hP r hr h0 Y order ho hreg row hrow hsmall tol steps x₀ he hX
  rw [residual_eq Y row hrow] at h
  exact (stable_solution hreg (linearEquation_coercive Y row hrow.nodup hrow.lt reg) ((normalEquations_iff Y row hrow reg z).mp hz) h).1

/-- **C91** (loss). -/
theorem C91_loss (z : Vec f ℝ) :
    Spec.rowLoss Y row reg e.x ≤ Spec.rowLoss Y row reg z + (Spec.length e.r + Spec.cgError u steps Y row reg X) ^ 2 / reg := by
  have h := cg_residual_le hA hP r hr h0 Y order ho hreg row hrow hsmall tol steps x₀ he hX
  rw [residual_eq Y row hrow] at h
  have hpd := linearEquation_posDef Y row hrow.nodup hrow.lt hreg
  obtain ⟨s, hs⟩ := posDef_solvable hpd (linearEquation (gram Y) reg (row.map fun e => (Y[e.1]?.getD 0, e.2))).2
  have h1 := (stable_solution hreg (linearEquation_coercive Y row hrow.nodup hrow.lt reg) hs h).2
  have h2 := quad_eq hpd.symm hs e.x
  have h3 := quad_le hpd hs z
  rw [rowLoss_eq Y row hrow.nodup hrow.lt, rowLoss_eq Y row hrow.nodup hrow.lt]
  linarith

/-- **C91** (converged).  A factor that met the tolerance is the optimum up to the tolerance and rounding. -/
theorem C91_converged (hc : e.converged = true) (htol : 0 ≤ tol) {z : Vec f ℝ} (hz : Spec.NormalEquations Y row reg z) :
    Spec.length (e.x - z) ≤ (Real.sqrt (2 * tol) + Spec.cgError u steps Y row reg X) / reg := by
  have h := C91_factor hA hP r hr h0 Y order ho hreg row hrow hsmall tol steps x₀ he hX hz
  refine h.trans (div_le_div_of_nonneg_right (add_le_add_left ?_ _) hreg.le)
  rcases (C91_stops hA hP r Y order row hrow hsmall tol steps x₀ he).1 hc with h1 | h1
  · exact Real.le_sqrt_of_sq_le h1
  · unfold roundCgRow at he
    rw [if_pos (List.isEmpty_iff.mpr h1)] at he
    injection he with he
    rw [← he]
    have : (fun _ : Fin f => A.zero) = 0 := by rw [hA.zero]; rfl
    dsimp only
    rw [this, length_zero]
    exact Real.sqrt_nonneg _

end

end Implicit
