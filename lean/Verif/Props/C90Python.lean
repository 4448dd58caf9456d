import Verif.Model.RoundPyDirect
import Verif.Props.C90Sweep
/-!
# C90 — the python direct solver (`use_native=False, use_cg=False`)

The same bounds, with `κ` multiplied by the number of factors: the error of an elimination is measured by the sum of all entries.
-/

set_option linter.unusedSectionVars false

namespace Implicit

open Spec (ValidRow)

variable {f : Nat}

section
variable {A : FloatOps ℝ} {u : ℝ}

theorem near_accumulatePy (hA : A.Accurate u) {k : Nat} (hk : 5 ≤ k) {M : Mat f ℝ} {B : Vec f ℝ} {s t : Mat f ℝ × Vec f ℝ}
    (h : NearSystem u k M B s t) (e : Vec f ℝ × ℝ) :
    NearSystem u (k + 1) (fun a b => M a b + (|e.2| + 1) * |e.1 a| * |e.1 b|) (fun a => B a + gain e.2 * |e.1 a|)
      (A.accumulatePy s e) (accumulate t e) := by
  have hc : Near ((1 + u) ^ 3) (|e.2| + 1) (A.sub (if A.lt A.zero e.2 then e.2 else A.mul e.2 A.negOne) A.one) (conf e.2 - 1) := by
    by_cases hp : 0 < e.2
    · rw [if_pos ((hA.lt _ _).mpr (by rw [hA.zero]; exact hp))]
      exact near_conf_pos hA e.2 hp
    · rw [if_neg (fun hc => hp (by have := (hA.lt _ _).mp hc; rwa [hA.zero] at this))]
      have h1 : Near ((1 + u) ^ 1) 1 A.negOne (-1) := by
        have := near_sub hA (near_self 0 u) (near_self 1 u) (m := 1) (by omega) (by omega)
        unfold FloatOps.negOne
        rw [hA.zero, hA.one]
        simpa using this
      have h2 : Near ((1 + u) ^ 2) (|e.2| * 1) (A.mul e.2 A.negOne) (e.2 * -1) := near_mul hA (near_self e.2 u) h1 (by omega)
      have h3 := near_sub hA h2 (near_self 1 u) (m := 3) (by omega) (by omega)
      rw [hA.one]
      unfold conf
      rw [if_neg hp]
      simpa using h3
  rw [accumulate_eq]
  unfold FloatOps.accumulatePy
  refine ⟨fun a b => ?_, fun a => ?_⟩
  · have h1 := near_mul hA (near_self (e.1 a) u) (near_self (e.1 b) u) (m := 1) (by omega)
    have := near_add hA (h.1 a b) (near_mul hA hc h1 (m := 5) (by omega)) (m := k + 1) (by omega) (by omega)
    rw [← mul_assoc, ← mul_assoc] at this
    exact this
  · by_cases hp : 0 < e.2
    · have hg : gain e.2 = e.2 := if_pos hp
      have := near_add hA (h.2 a) (near_mul hA (near_self e.2 u) (near_self (e.1 a) u) (m := 1) (by omega)) (m := k + 1) (by omega) (by omega)
      rw [abs_of_pos hp] at this
      dsimp only
      rw [if_pos ((hA.lt _ _).mpr (by rw [hA.zero]; exact hp)), hg]
      exact this
    · have hg : gain e.2 = 0 := if_neg hp
      dsimp only
      rw [if_neg (fun hc => hp (by have := (hA.lt _ _).mp hc; rwa [hA.zero] at this)), hg, zero_mul, zero_mul, add_zero, add_zero]
      exact (h.2 a).mono (growth_mono hA.nonneg (by omega))

theorem near_foldlPy (hA : A.Accurate u) (es : List (Vec f ℝ × ℝ)) {k : Nat} (hk : 5 ≤ k) {M : Mat f ℝ} {B : Vec f ℝ}
    {s t : Mat f ℝ × Vec f ℝ} (h : NearSystem u k M B s t) :
    NearSystem u (k + es.length) (fun a b => M a b + (es.map fun e => (|e.2| + 1) * |e.1 a| * |e.1 b|).sum)
      (fun a => B a + (es.map fun e => gain e.2 * |e.1 a|).sum) (es.foldl A.accumulatePy s) (es.foldl accumulate t) := by
  induction es generalizing k M B s t with
  | nil => simpa using h
  | cons e es ih =>
    have := ih (by omega) (near_accumulatePy hA hk h e)
    simp only [List.map_cons, List.sum_cons, List.foldl_cons, List.length_cons, ← add_assoc] at this ⊢
    rw [show k + es.length + 1 = k + 1 + es.length by omega]
    exact this

/-- The system of a row as computed. -/
theorem near_systemPy (hA : A.Accurate u) (r : Rounding ℝ) (hr : r.u = u) (h0 : r.η = 0) (Y : List (Vec f ℝ))
    (order : Fin f → Fin f → SumTree Y.length) (ho : ∀ a b, (order a b).Complete) (reg : ℝ) (es : List (Vec f ℝ × ℝ))
    {S : Mat f ℝ × Vec f ℝ} (hS : S = es.foldl A.accumulatePy (A.regularised (roundGram r Y order) reg, fun _ => A.zero)) :
    (∀ a b, Near ((1 + u) ^ (Y.length + es.length + 5)) (rowSize Y reg es a b) (S.1 a b) ((linearEquation (gram Y) reg es).1 a b)) ∧
    ∀ a, Near ((1 + u) ^ (Y.length + es.length + 5)) (es.map fun e => gain e.2 * |e.1 a|).sum (S.2 a)
      ((linearEquation (gram Y) reg es).2 a) := by
  have hnear := near_foldlPy hA es (by omega) (near_regularised hA r hr h0 Y order ho reg)
  rw [← hS] at hnear
  rw [show Y.length + 5 + es.length = Y.length + es.length + 5 by omega] at hnear
  refine ⟨hnear.1, fun a => ?_⟩
  have := hnear.2 a
  beta_reduce at this
  rwa [zero_add] at this

end

section
variable {Y : List (Vec f ℝ)} {reg : ℝ} {es : List (Vec f ℝ × ℝ)} {S : Mat f ℝ × Vec f ℝ} {F : ℝ}

/-- The sum of all entries is at most the number of factors times the trace. -/
theorem entries_le (hreg : 0 ≤ reg) : ∑ a, ∑ b, rowSize Y reg es a b ≤ f * traceSize Y reg es := by
  have h1 : ∑ a, ∑ b, rowSize Y reg es a b = dot (fun _ => 1) (mulVec (rowSize Y reg es) fun _ => 1) := by
    unfold mulVec dot
    simp
  have h2 := abs_dot_le_length (fun _ : Fin f => (1 : ℝ)) (mulVec (rowSize Y reg es) fun _ => 1)
  have h3 := length_mulVec_rowSize Y hreg es fun _ => 1
  have h4 : Spec.length (fun _ : Fin f => (1 : ℝ)) ^ 2 = f := by rw [length_sq_sum]; simp
  have h5 := mul_le_mul_of_nonneg_left h3 (length_nonneg (fun _ : Fin f => (1 : ℝ)))
  rw [h1]
  have h6 := le_abs_self (dot (fun _ => 1) (mulVec (rowSize Y reg es) fun _ => 1))
  calc _ ≤ _ := h6
    _ ≤ _ := h2
    _ ≤ _ := h5
    _ = _ := by rw [← h4]; ring

theorem computed_entries_le (hF : 1 ≤ F) (hreg : 0 ≤ reg)
    (hM : ∀ a b, Near F (rowSize Y reg es a b) (S.1 a b) ((linearEquation (gram Y) reg es).1 a b)) :
    ∑ a, ∑ b, |S.1 a b| ≤ F * (f * traceSize Y reg es) := by
  refine le_trans ?_ (mul_le_mul_of_nonneg_left (entries_le (Y := Y) (es := es) hreg) (by linarith))
  rw [Finset.mul_sum]
  refine Finset.sum_le_sum fun a _ => ?_
  rw [Finset.mul_sum]
  exact Finset.sum_le_sum fun b _ => (hM a b).abs_le

theorem length_computed (hF : 1 ≤ F) (hreg : 0 ≤ reg)
    (hM : ∀ a b, Near F (rowSize Y reg es a b) (S.1 a b) ((linearEquation (gram Y) reg es).1 a b)) (x : Vec f ℝ) :
    Spec.length (mulVec S.1 x - mulVec (linearEquation (gram Y) reg es).1 x) ≤ (F - 1) * (traceSize Y reg es * Spec.length x) := by
  have : ∀ a, |(mulVec S.1 x - mulVec (linearEquation (gram Y) reg es).1 x) a| ≤
      (F - 1) * mulVec (rowSize Y reg es) (fun b => |x b|) a := by
    intro a
    rw [Pi.sub_apply]
    unfold mulVec dot
    rw [← Finset.sum_sub_distrib, Finset.mul_sum]
    refine (Finset.abs_sum_le_sum_abs _ _).trans (Finset.sum_le_sum fun b _ => ?_)
    rw [← sub_mul, abs_mul, ← mul_assoc]
    exact mul_le_mul_of_nonneg_right (hM a b).2.1 (abs_nonneg _)
  refine (length_mono this).trans ?_
  rw [length_smul, abs_of_nonneg (by linarith)]
  refine mul_le_mul_of_nonneg_left ?_ (by linarith)
  have := length_mulVec_rowSize Y hreg es (fun b => |x b|)
  rwa [length_abs] at this

end

section
variable {A : FloatOps ℝ} {u : ℝ} (hA : A.Accurate u) (r : Rounding ℝ) (hr : r.u = u) (h0 : r.η = 0) {κ : ℝ}
  {solve : Mat f ℝ → Vec f ℝ → Option (Vec f ℝ)} (hp : StableElimination κ solve) (Y : List (Vec f ℝ))
  (order : Fin f → Fin f → SumTree Y.length) (ho : ∀ a b, (order a b).Complete) {reg : ℝ} (hreg : 0 < reg) (row : List (Nat × ℝ))
  (hrow : ValidRow Y.length row)

include hA hr h0 hp ho hreg hrow

/-- **C90** (python, no error).  `np.linalg.solve` raises no error. -/
theorem C90_python_solved (hsmall : (Spec.systemGrowth u Y.length row.length + f * κ * (1 + Spec.systemGrowth u Y.length row.length)) *
      Spec.systemSize Y row reg < reg) : ∃ x, roundPyRow A r solve Y order reg row = .ok x := by
  unfold roundPyRow FloatOps.leastSquaresPyRow
  rw [rowEntries_eq hrow.lt]
  obtain ⟨S, hS⟩ : ∃ S, S = (row.map fun e => ((Y[e.1]?.getD 0 : Vec f ℝ), e.2)).foldl A.accumulatePy
    (A.regularised (roundGram r Y order) reg, fun _ => A.zero) := ⟨_, rfl⟩
  obtain ⟨hM, -⟩ := near_systemPy hA r hr h0 Y order ho reg _ hS
  rw [List.length_map] at hM
  have hF := one_le_growth hA.nonneg (Y.length + row.length + 5)
  obtain ⟨x, hx⟩ := hp.solves S.1 S.2 (by
    intro x hx
    have hxpos : 0 < Spec.length x := by
      have := dot_self_pos hx
      rw [← length_sq_dot] at this
      rcases (length_nonneg x).lt_or_eq with h | h
      · exact h
      · rw [← h] at this; norm_num at this
    have h1 := computed_entries_le hF hreg.le hM
    have h2 := length_computed hF hreg.le hM x
    have h3 := linearEquation_coercive Y row hrow.nodup hrow.lt reg x
    have h4 := (le_abs_self _).trans (abs_dot_le_length x (mulVec (linearEquation (gram Y) reg (row.map fun e => ((Y[e.1]?.getD 0 : Vec f ℝ), e.2))).1 x))
    rw [← length_sq_dot] at h3
    have h5 : reg * Spec.length x ≤ Spec.length (mulVec (linearEquation (gram Y) reg (row.map fun e => ((Y[e.1]?.getD 0 : Vec f ℝ), e.2))).1 x) := by
      refine le_of_mul_le_mul_left ?_ hxpos
      linarith
    have h6 := length_add_le (mulVec (linearEquation (gram Y) reg (row.map fun e => ((Y[e.1]?.getD 0 : Vec f ℝ), e.2))).1 x - mulVec S.1 x) (mulVec S.1 x)
    rw [sub_add_cancel, ← neg_sub, length_neg] at h6
    have h7 := mul_le_mul_of_nonneg_right (mul_le_mul_of_nonneg_left h1 hp.nonneg) (length_nonneg x)
    rw [traceSize_eq] at h2 h7
    unfold Spec.systemGrowth at hsmall
    rw [add_sub_cancel] at hsmall
    have h8 := mul_lt_mul_of_pos_right hsmall hxpos
    refine lt_of_le_of_lt h7 ?_
    linarith)
  refine ⟨x, ?_⟩
  rw [hS] at hx
  simp only [bind, Except.bind, hx]
  rfl

variable {x : Vec f ℝ} (hx : roundPyRow A r solve Y order reg row = .ok x)

include hx

/-- **C90** (python, normal equations). -/
theorem C90_python_residual : Spec.length (Spec.residual Y row reg x) ≤ Spec.rowResidual u (f * κ) Y row reg x := by
  rw [residual_eq Y row hrow]
  unfold roundPyRow FloatOps.leastSquaresPyRow at hx
  rw [rowEntries_eq hrow.lt] at hx
  obtain ⟨S, hS⟩ : ∃ S, S = (row.map fun e => ((Y[e.1]?.getD 0 : Vec f ℝ), e.2)).foldl A.accumulatePy
    (A.regularised (roundGram r Y order) reg, fun _ => A.zero) := ⟨_, rfl⟩
  obtain ⟨hM, hB⟩ := near_systemPy hA r hr h0 Y order ho reg _ hS
  have hpv : solve S.1 S.2 = some x := by
    simp only [bind, Except.bind, ← hS] at hx
    cases h : solve S.1 S.2 with
    | none => rw [h] at hx; cases hx
    | some z => rw [h] at hx; injection hx with hx; rw [hx]
  rw [List.length_map] at hM hB
  have hF := one_le_growth hA.nonneg (Y.length + row.length + 5)
  have h1 := length_target hF hB
  have h2 := length_computed hF hreg.le hM x
  have h3 := hp.residual _ _ _ hpv
  have h4 := mul_le_mul_of_nonneg_right (mul_le_mul_of_nonneg_left (computed_entries_le hF hreg.le hM) hp.nonneg) (length_nonneg x)
  rw [targetSize_eq] at h1
  rw [traceSize_eq] at h2 h4
  generalize linearEquation (gram Y) reg (row.map fun e => ((Y[e.1]?.getD 0 : Vec f ℝ), e.2)) = E at *
  have e : E.2 - mulVec E.1 x = ((E.2 - S.2) + -(mulVec S.1 x - S.2)) + (mulVec S.1 x - mulVec E.1 x) := by
    funext a
    simp only [Pi.sub_apply, Pi.add_apply, Pi.neg_apply]
    ring
  have h5 := length_add_le ((E.2 - S.2) + -(mulVec S.1 x - S.2)) (mulVec S.1 x - mulVec E.1 x)
  have h6 := length_add_le (E.2 - S.2) (-(mulVec S.1 x - S.2))
  rw [length_neg] at h6
  rw [e]
  unfold Spec.rowResidual Spec.systemGrowth
  dsimp only
  rw [add_sub_cancel]
  linarith

/-- **C90** (python, factor). -/
theorem C90_python_factor {z : Vec f ℝ} (hz : Spec.NormalEquations Y row reg z) :
    Spec.length (x - z) ≤ Spec.rowResidual u (f * κ) Y row reg x / reg := by
  have h := C90_python_residual hA r hr h0 hp Y order ho hreg row hrow hx
  rw [residual_eq Y row hrow] at h
  exact (stable_solution hreg (linearEquation_coercive Y row hrow.nodup hrow.lt reg) ((normalEquations_iff Y row hrow reg z).mp hz) h).1

/-- **C90** (python, loss). -/
theorem C90_python_loss (z : Vec f ℝ) :
    Spec.rowLoss Y row reg x ≤ Spec.rowLoss Y row reg z + Spec.rowResidual u (f * κ) Y row reg x ^ 2 / reg := by
  have h := C90_python_residual hA r hr h0 hp Y order ho hreg row hrow hx
  rw [residual_eq Y row hrow] at h
  have hpd := linearEquation_posDef Y row hrow.nodup hrow.lt hreg
  obtain ⟨s, hs⟩ := posDef_solvable hpd (linearEquation (gram Y) reg (row.map fun e => (Y[e.1]?.getD 0, e.2))).2
  have h1 := (stable_solution hreg (linearEquation_coercive Y row hrow.nodup hrow.lt reg) hs h).2
  have h2 := quad_eq hpd.symm hs x
  have h3 := quad_le hpd hs z
  rw [rowLoss_eq Y row hrow.nodup hrow.lt, rowLoss_eq Y row hrow.nodup hrow.lt]
  linarith

end

section
variable {A : FloatOps ℝ} {u : ℝ} (hA : A.Accurate u) (r : Rounding ℝ) (hr : r.u = u) (h0 : r.η = 0) {κ : ℝ}
  {solve : Mat f ℝ → Vec f ℝ → Option (Vec f ℝ)} (hp : StableElimination κ solve) {reg : ℝ} (hreg : 0 < reg) (C : SpRows ℝ)
  (X Y : List (Vec f ℝ))

include hA hr h0 hp hreg

/-- **C90** (python, sweep).  Half an iteration does not increase the objective by more than the stated error. -/
theorem C90_python_users (order : Fin f → Fin f → SumTree Y.length) (ho : ∀ a b, (order a b).Complete)
    (hv : ∀ row ∈ C, ValidRow Y.length row) {X' : List (Vec f ℝ)} (hX : roundPyLeastSquares A r solve C X Y order reg = .ok X') :
    Spec.objective C X' Y reg ≤ Spec.objective C X Y reg + Spec.sweepError u (f * κ) Y C reg X' := by
  obtain ⟨hl, hget⟩ := mapM_ok_iff hX
  rw [List.length_range] at hl
  rw [objective_users, objective_users C X]
  have := sum_le_error hl (fun i => Spec.rowLoss Y (C[i.1]?.getD []) reg X[i])
    (fun i => Spec.rowLoss Y (C[i.1]?.getD []) reg X'[i])
    (fun i => Spec.rowResidual u (f * κ) Y (C[i.1]?.getD []) reg X'[i] ^ 2 / reg) (by
      intro i h1 h2
      obtain ⟨x, hx, hi⟩ := hget i i (by rw [List.getElem?_range (by omega)])
      rw [List.getElem?_eq_getElem h2] at hi
      injection hi with hi
      dsimp only
      cases hc : C[i]? with
      | none => rw [hc] at hx; cases hx
      | some row =>
        rw [hc] at hx
        have := C90_python_loss hA r hr h0 hp Y order ho hreg row (hv row (List.mem_of_getElem? hc)) hx X[i]
        show Spec.rowLoss Y row reg X'[i] ≤ Spec.rowLoss Y row reg X[i] + Spec.rowResidual u (f * κ) Y row reg X'[i] ^ 2 / reg
        rw [hi]
        exact this)
  unfold Spec.sweepError
  linarith

end

/-! ## The assumption can be met -/

open Classical in
/-- A solver for all regular systems that makes no error. -/
noncomputable def elimination (f : Nat) (A : Mat f ℝ) (b : Vec f ℝ) : Option (Vec f ℝ) :=
  if h : ∃ x, mulVec A x = b then some h.choose else none

theorem elimination_stable (f : Nat) : StableElimination 0 (elimination f) where
  nonneg := le_rfl
  solves A b h := by
    have hinj : Function.Injective (mulVecLin A) := by
      refine (injective_iff_map_eq_zero _).mpr fun x hx => ?_
      by_contra hne
      have := h x hne
      have e : mulVec A x = 0 := hx
      rw [e, length_zero] at this
      simp at this
    have hb : ∃ x, mulVec A x = b := (LinearMap.injective_iff_surjective.mp hinj) b
    exact ⟨hb.choose, dif_pos hb⟩
  residual A b x h := by
    unfold elimination at h
    split_ifs at h with hb
    injection h with h
    have := hb.choose_spec
    rw [h] at this
    rw [this, sub_self, length_zero]
    simp

/-- The user of `round_row_example` with the python solver: a factor is computed and its error is the stated one. -/
example : ∃ x, roundPyRow (roundOps (freeFloat 24) false) (freeFloat 24) (elimination 1) [fun _ => 1, fun _ => 2]
      (fun _ _ => .add (.leaf 1) (.leaf 0)) 1 [(0, 3), (1, -2)] = .ok x ∧
    Spec.length (x - fun _ => 1 / 4) ≤
      Spec.rowResidual (2 ^ (-(24 : Nat) : Int)) 0 [fun _ => 1, fun _ => 2] [(0, 3), (1, -2)] 1 x := by
  have hl : ∀ c : ℝ, Spec.length (fun _ : Fin 1 => c) ^ 2 = c ^ 2 := fun c => by rw [length_sq_sum]; simp
  have hT : Spec.systemSize [fun _ : Fin 1 => (1 : ℝ), fun _ => 2] [(0, 3), (1, -2)] 1 = 22 := by
    unfold Spec.systemSize
    simp [hl]
    norm_num
  have hA := roundOps_accurate (freeFloat 24) rfl false
  have ho : ∀ a b : Fin 1, (SumTree.add (.leaf 1) (.leaf 0) : SumTree 2).Complete := fun _ _ => by unfold SumTree.Complete; decide
  have hrow : ValidRow 2 [(0, (3 : ℝ)), (1, -2)] := ⟨by simp, by simp⟩
  obtain ⟨x, hx⟩ := C90_python_solved hA (freeFloat 24) rfl rfl (elimination_stable 1) [fun _ => 1, fun _ => 2]
    (fun _ _ => .add (.leaf 1) (.leaf 0)) ho one_pos [(0, 3), (1, -2)] hrow (by
      rw [hT]
      unfold Spec.systemGrowth freeFloat
      norm_num)
  refine ⟨x, hx, ?_⟩
  have := C90_python_factor hA (freeFloat 24) rfl rfl (elimination_stable 1) [fun _ => 1, fun _ => 2]
    (fun _ _ => .add (.leaf 1) (.leaf 0)) ho one_pos [(0, 3), (1, -2)] hrow hx (z := fun _ => 1 / 4) (by
      intro a
      have h1 : List.lookup 1 [(0, (3 : ℝ)), (1, -2)] = some (-2) := rfl
      simp [Spec.confidence, Spec.preference, Fin.sum_univ_succ, h1]
      norm_num)
  rw [div_one, mul_zero] at this
  exact this

end Implicit
