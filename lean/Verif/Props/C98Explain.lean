import Verif.Props.C98
/-!
# C98 — `explain` with rounding: the listed contributions, the total, and its distance from `recommend`
-/

set_option linter.unusedSectionVars false

namespace Implicit

open Spec (ValidRow)

variable {f : Nat}

/-! ## The solution -/

section
variable {Y : List (Vec f ℝ)} {reg : ℝ} {es : List (Vec f ℝ × ℝ)} {M : Mat f ℝ} {F κ : ℝ}

theorem weighted_residual (hF : 1 ≤ F) (hκ : 0 ≤ κ) (hreg : 0 ≤ reg)
    (hM : ∀ a b, Near F (rowSize Y reg es a b) (M a b) ((linearEquation (gram Y) reg es).1 a b)) {y x : Vec f ℝ}
    (hx : Spec.length (mulVec (lowerPart M) x - y) ≤ κ * (∑ a, M a a) * Spec.length x) :
    Spec.length (y - mulVec (linearEquation (gram Y) reg es).1 x) ≤ ((F - 1) + κ * F) * traceSize Y reg es * Spec.length x := by
  have h1 := length_lowerPart (S := (M, y)) hF hreg hM x
  have h2 := mul_le_mul_of_nonneg_right (mul_le_mul_of_nonneg_left (trace_le (S := (M, y)) hreg hM) hκ) (length_nonneg x)
  dsimp only at h1 h2
  generalize linearEquation (gram Y) reg es = E at *
  have e : y - mulVec E.1 x = -(mulVec (lowerPart M) x - y) + (mulVec (lowerPart M) x - mulVec E.1 x) := by
    funext a
    simp only [Pi.sub_apply, Pi.add_apply, Pi.neg_apply]
    ring
  have h3 := length_add_le (-(mulVec (lowerPart M) x - y)) (mulVec (lowerPart M) x - mulVec E.1 x)
  rw [length_neg] at h3
  rw [e]
  linarith

end

theorem coercive_length {M : Mat f ℝ} {reg ρ : ℝ} (hM : ∀ x, reg * dot x x ≤ dot x (mulVec M x)) {y x : Vec f ℝ} (hρ : ρ < reg)
    (hx : Spec.length (y - mulVec M x) ≤ ρ * Spec.length x) : Spec.length x ≤ Spec.length y / (reg - ρ) := by
  rw [le_div_iff₀ (by linarith)]
  rcases (length_nonneg x).lt_or_eq with hpos | hzero
  · have h1 := hM x
    rw [← length_sq_dot] at h1
    have h2 := (le_abs_self _).trans (abs_dot_le_length x (mulVec M x))
    have h3 : reg * Spec.length x ≤ Spec.length (mulVec M x) := by
      refine le_of_mul_le_mul_left ?_ hpos
      linarith
    have h4 := length_add_le y (-(y - mulVec M x))
    rw [length_neg, show y + -(y - mulVec M x) = mulVec M x by funext a; simp] at h4
    linarith
  · rw [← hzero, zero_mul]
    exact length_nonneg y

section
variable {A D : FloatOps ℝ} {u v : ℝ} (hA : A.Accurate u) (hD : D.Accurate v) (huv : v ≤ u) (r d : Rounding ℝ) (hr : r.u = u)
  (h0 : r.η = 0) (hd : d.u = v) (hd0 : d.η = 0) {κ : ℝ} {chol : Mat f ℝ → Vec f ℝ → Option (Vec f ℝ)} (hp : StableSolver κ chol)
  (H : HeapImpl (ℝ × Nat) pairLt) (Y : List (Vec f ℝ)) (order : Fin f → Fin f → SumTree Y.length) (ho : ∀ a b, (order a b).Complete)
  (sums : Nat → SumTree f) (hs : ∀ i, (sums i).Complete) {reg : ℝ} (hreg : 0 < reg) (row : List (Nat × ℝ))
  (hrow : ValidRow Y.length row) (hsmall : Spec.explainNoise u κ Y row reg < reg)

include hA hD huv hr h0 hp ho hreg hrow hsmall

/-- The matrix of the row, as computed. -/
theorem roundExplain_weighted (y : Vec f ℝ) :
    ∃ w, chol (fun a b => explainMatrix A D (roundGram r Y order) reg (row.map fun e => ((Y[e.1]?.getD 0 : Vec f ℝ), e.2)) b a) y = some w ∧
      Spec.length w ≤ Spec.length y / (reg - Spec.explainNoise u κ Y row reg) ∧
      ∀ w', Spec.IsWeighted Y row reg y w' → Spec.length (w - w') ≤ Spec.explainNoise u κ Y row reg * Spec.length w / reg := by
  have hM := near_explainMatrix hA (accurate_mono hD huv) r hr h0 Y order ho reg (row.map fun e => ((Y[e.1]?.getD 0 : Vec f ℝ), e.2))
  rw [List.length_map] at hM
  have hF := one_le_growth hA.nonneg (Y.length + row.length + 5)
  have hco := linearEquation_coercive Y row hrow.nodup hrow.lt reg
  have hN : (((1 + u) ^ (Y.length + row.length + 5) - 1) + κ * (1 + u) ^ (Y.length + row.length + 5)) *
      traceSize Y reg (row.map fun e => ((Y[e.1]?.getD 0 : Vec f ℝ), e.2)) = Spec.explainNoise u κ Y row reg := by
    rw [traceSize_eq]
    unfold Spec.explainNoise Spec.systemGrowth
    rw [add_sub_cancel]
  obtain ⟨M, hMdef⟩ : ∃ M, M = fun a b => explainMatrix A D (roundGram r Y order) reg
    (row.map fun e => ((Y[e.1]?.getD 0 : Vec f ℝ), e.2)) b a := ⟨_, rfl⟩
  have hM' : ∀ a b, Near ((1 + u) ^ (Y.length + row.length + 5)) (rowSize Y reg (row.map fun e => ((Y[e.1]?.getD 0 : Vec f ℝ), e.2)) a b)
      (M a b) ((linearEquation (gram Y) reg (row.map fun e => ((Y[e.1]?.getD 0 : Vec f ℝ), e.2))).1 a b) := by
    rw [hMdef]
    exact hM
  rw [← hMdef]
  obtain ⟨w, hw⟩ := hp.solves M y (lowerPart_coercive (S := (M, y)) hF hp.nonneg hreg.le hM' hco (by rwa [hN]))
  have hres := weighted_residual hF hp.nonneg hreg.le hM' (hp.residual _ _ _ hw)
  rw [hN] at hres
  refine ⟨w, hw, coercive_length hco hsmall hres, fun w' hw' => ?_⟩
  exact (stable_solution hreg hco ((isWeighted_iff Y row hrow reg y w').mp hw') hres).1

theorem roundExplain_eq (itemid : Nat) (y : Vec f ℝ) (hy : Y[itemid]? = some y) :
    ∃ w, Spec.length w ≤ Spec.length y / (reg - Spec.explainNoise u κ Y row reg) ∧
      (∀ w', Spec.IsWeighted Y row reg y w' → Spec.length (w - w') ≤ Spec.explainNoise u κ Y row reg * Spec.length w / reg) ∧
      ∀ (ws : Option (Mat f ℝ)) (N : Nat), (ws = none ∨ ws = some (explainMatrix A D (roundGram r Y order) reg
          (row.map fun e => ((Y[e.1]?.getD 0 : Vec f ℝ), e.2)))) →
        roundExplain A D H r d chol Y order sums reg row itemid ws N =
          .ok ⟨((computedContributions D d sums w Y row).map Prod.fst).foldl D.add D.zero,
            ((drainHeap H ((computedContributions D d sums w Y row).foldl (keepLargest H N) []).length
              ((computedContributions D d sums w Y row).foldl (keepLargest H N) [])).map fun c => (c.2, c.1)).reverse,
            explainMatrix A D (roundGram r Y order) reg (row.map fun e => ((Y[e.1]?.getD 0 : Vec f ℝ), e.2))⟩ := by
  obtain ⟨w, hw, h1, h2⟩ := roundExplain_weighted hA hD huv r hr h0 hp Y order ho hreg row hrow hsmall y
  refine ⟨w, h1, h2, fun ws N hws => ?_⟩
  unfold roundExplain
  rcases hws with rfl | rfl
  all_goals
    simp only [rowEntries_eq hrow.lt, hy, bind, Except.bind, pure, Except.pure]
    simp only [hw, roundExplainScores_eq hD d sums w Y row hrow.lt]

end

end Implicit
