import Verif.Lemmas.CG
import Verif.Lemmas.RoundALS
import Verif.Model.RoundCG

set_option linter.unusedSectionVars false

namespace Implicit

variable {f : Nat}

section
variable {A : FloatOps ℝ} {P : BlasProducts f} {u : ℝ}

/-! ## Products -/

theorem near_blasDot (hu : 0 ≤ u) (hP : P.Accurate u) (x y : Vec f ℝ) :
    Near ((1 + u) ^ (f + 1)) (dot (fun i => |x i|) (fun i => |y i|)) (P.dot x y) (dot x y) := by
  refine ⟨one_le_growth hu _, hP.dot x y, ?_⟩
  unfold dot
  refine (Finset.abs_sum_le_sum_abs _ _).trans (le_of_eq (Finset.sum_congr rfl fun i _ => abs_mul _ _))

theorem near_matVec (hu : 0 ≤ u) {k l : Nat} {G H S : Mat f ℝ} (h : ∀ a b, Near ((1 + u) ^ k) (S a b) (G a b) (H a b))
    (x v : Vec f ℝ) (hv : ∀ a, |v a - mulVec G x a| ≤ ((1 + u) ^ l - 1) * ∑ b, |G a b| * |x b|) (a : Fin f) :
    Near ((1 + u) ^ (k + l)) (mulVec S (fun b => |x b|) a) (v a) (mulVec H x a) := by
  have h0 : 0 ≤ (1 + u) ^ l - 1 := by linarith [one_le_growth hu l]
  have h1 : ∑ b, |G a b| * |x b| ≤ (1 + u) ^ k * mulVec S (fun b => |x b|) a := by
    unfold mulVec dot
    rw [Finset.mul_sum]
    refine Finset.sum_le_sum fun b _ => ?_
    rw [← mul_assoc]
    exact mul_le_mul_of_nonneg_right (h a b).abs_le (abs_nonneg _)
  have h2 : |mulVec G x a - mulVec H x a| ≤ ((1 + u) ^ k - 1) * mulVec S (fun b => |x b|) a := by
    unfold mulVec dot
    rw [← Finset.sum_sub_distrib, Finset.mul_sum]
    refine (Finset.abs_sum_le_sum_abs _ _).trans (Finset.sum_le_sum fun b _ => ?_)
    rw [← sub_mul, abs_mul, ← mul_assoc]
    exact mul_le_mul_of_nonneg_right (h a b).2.1 (abs_nonneg _)
  refine ⟨one_le_growth hu _, ?_, ?_⟩
  · have e := abs_add_le (v a - mulVec G x a) (mulVec G x a - mulVec H x a)
    rw [sub_add_sub_cancel] at e
    have h3 := (hv a).trans (mul_le_mul_of_nonneg_left h1 h0)
    rw [pow_add]
    linarith
  · unfold mulVec dot
    refine (Finset.abs_sum_le_sum_abs _ _).trans (Finset.sum_le_sum fun b _ => ?_)
    rw [abs_mul]
    exact mul_le_mul_of_nonneg_right (h a b).2.2 (abs_nonneg _)

theorem near_conf_alt (hA : A.Accurate u) (c : ℝ) :
    Near ((1 + u) ^ 3) (|c| + 1) (A.sub (if A.lt c A.zero then A.mul A.negOne c else c) A.one) (conf c - 1) := by
  rw [hA.zero]
  by_cases hc : c < 0
  · rw [if_pos ((hA.lt _ _).mpr hc)]
    exact near_conf hA c (not_lt.mpr hc.le)
  · rw [if_neg (fun h => hc ((hA.lt _ _).mp h))]
    rcases (not_lt.mp hc).eq_or_lt with h | h
    · subst h
      have h3 := near_sub hA (near_self 0 u) (near_self 1 u) (m := 3) (by omega) (by omega)
      rw [hA.one]
      unfold conf
      simpa using h3
    · exact near_conf_pos hA c h

/-! ## `Ap` -/

theorem near_applyFold (hA : A.Accurate u) (hP : P.Accurate u) (p : Vec f ℝ) (es : List (Vec f ℝ × ℝ)) {k : Nat} (hk : f + 6 ≤ k)
    {M v w : Vec f ℝ} (h : ∀ a, Near ((1 + u) ^ k) (M a) (v a) (w a)) (a : Fin f) :
    Near ((1 + u) ^ (k + es.length)) (M a + (es.map fun e => ((|e.2| + 1) * dot (fun b => |e.1 b|) (fun b => |p b|)) * |e.1 a|).sum)
      (es.foldl (fun v e =>
        A.axpyVec (A.mul (A.sub (if A.lt e.2 A.zero then A.mul A.negOne e.2 else e.2) A.one) (P.dot e.1 p)) e.1 v) v a)
      (es.foldl (fun v e => axpy (((if e.2 < 0 then -e.2 else e.2) - 1) * dot e.1 p) e.1 v) w a) := by
  induction es generalizing k M v w with
  | nil => simpa using h a
  | cons e es ih =>
    have := ih (k := k + 1) (M := fun a => M a + ((|e.2| + 1) * dot (fun b => |e.1 b|) (fun b => |p b|)) * |e.1 a|)
      (v := A.axpyVec (A.mul (A.sub (if A.lt e.2 A.zero then A.mul A.negOne e.2 else e.2) A.one) (P.dot e.1 p)) e.1 v)
      (w := axpy (((if e.2 < 0 then -e.2 else e.2) - 1) * dot e.1 p) e.1 w) (by omega) (fun a => by
        rw [conf_alt]
        exact near_axpy hA (near_mul hA (near_conf_alt hA e.2) (near_blasDot hA.nonneg hP e.1 p) (m := f + 5) (by omega))
          (near_self (e.1 a) u) (h a) (by omega) (by omega))
    simp only [List.map_cons, List.sum_cons, List.foldl_cons, List.length_cons, ← add_assoc] at this ⊢
    rw [show k + es.length + 1 = k + 1 + es.length by omega]
    exact this

theorem near_residualFold (hA : A.Accurate u) (hP : P.Accurate u) (x : Vec f ℝ) (es : List (Vec f ℝ × ℝ)) {k : Nat} (hk : f + 7 ≤ k)
    {M v w : Vec f ℝ} (h : ∀ a, Near ((1 + u) ^ k) (M a) (v a) (w a)) (a : Fin f) :
    Near ((1 + u) ^ (k + es.length))
      (M a + (es.map fun e => (gain e.2 + (|e.2| + 1) * dot (fun b => |e.1 b|) (fun b => |x b|)) * |e.1 a|).sum)
      (es.foldl (fun r e =>
        if A.lt A.zero e.2 then A.axpyVec (A.sub e.2 (A.mul (A.sub e.2 A.one) (P.dot e.1 x))) e.1 r
        else A.axpyVec (A.sub A.zero (A.mul (A.sub (A.mul A.negOne e.2) A.one) (P.dot e.1 x))) e.1 r) v a)
      (es.foldl (fun r e =>
        if 0 < e.2 then axpy (e.2 - (e.2 - 1) * dot e.1 x) e.1 r
        else axpy (0 - (-e.2 - 1) * dot e.1 x) e.1 r) w a) := by
  induction es generalizing k M v w with
  | nil => simpa using h a
  | cons e es ih =>
    have hstep : ∀ a, Near ((1 + u) ^ (k + 1)) (M a + (gain e.2 + (|e.2| + 1) * dot (fun b => |e.1 b|) (fun b => |x b|)) * |e.1 a|)
        ((if A.lt A.zero e.2 then A.axpyVec (A.sub e.2 (A.mul (A.sub e.2 A.one) (P.dot e.1 x))) e.1 v
          else A.axpyVec (A.sub A.zero (A.mul (A.sub (A.mul A.negOne e.2) A.one) (P.dot e.1 x))) e.1 v) a)
        ((if 0 < e.2 then axpy (e.2 - (e.2 - 1) * dot e.1 x) e.1 w else axpy (0 - (-e.2 - 1) * dot e.1 x) e.1 w) a) := by
      intro a
      rw [hA.zero]
      by_cases hp : 0 < e.2
      · rw [if_pos ((hA.lt _ _).mpr hp), if_pos hp]
        have h1 := near_mul hA (near_conf_pos hA e.2 hp) (near_blasDot hA.nonneg hP e.1 x) (m := f + 5) (by omega)
        have h2 := near_sub hA (near_self e.2 u) h1 (m := f + 6) (by omega) (by omega)
        have h3 := near_axpy hA h2 (near_self (e.1 a) u) (h a) (m := k + 1) (by omega) (by omega)
        have hg : gain e.2 = |e.2| := by rw [abs_of_pos hp]; exact if_pos hp
        have hc : conf e.2 = e.2 := if_pos hp
        rw [hc] at h3
        rw [hg]
        exact h3
      · rw [if_neg (fun hc => hp ((hA.lt _ _).mp hc)), if_neg hp]
        have h1 := near_mul hA (near_conf hA e.2 hp) (near_blasDot hA.nonneg hP e.1 x) (m := f + 5) (by omega)
        have h2 := near_sub hA (near_self 0 u) h1 (m := f + 6) (by omega) (by omega)
        have h3 := near_axpy hA h2 (near_self (e.1 a) u) (h a) (m := k + 1) (by omega) (by omega)
        have hg : gain e.2 = |0| := by rw [abs_zero]; exact if_neg hp
        have hc : conf e.2 = -e.2 := if_neg hp
        rw [hc] at h3
        rw [hg]
        exact h3
    have := ih (k := k + 1) (by omega) hstep
    simp only [List.map_cons, List.sum_cons, List.foldl_cons, List.length_cons, ← add_assoc] at this ⊢
    rw [show k + es.length + 1 = k + 1 + es.length by omega]
    exact this

/-! ## The row -/

variable (hA : A.Accurate u) (hP : P.Accurate u) (r : Rounding ℝ) (hr : r.u = u) (h0 : r.η = 0) (Y : List (Vec f ℝ))
    (order : Fin f → Fin f → SumTree Y.length) (ho : ∀ a b, (order a b).Complete) {reg : ℝ} (hreg : 0 ≤ reg)
    (es : List (Vec f ℝ × ℝ))

include hA hr h0 ho

theorem near_lowerGram (a b : Fin f) : Near ((1 + u) ^ (Y.length + 5)) (sizeMat Y reg a b)
    (lowerPart (A.regularised (roundGram r Y order) reg) a b) (regularised (gram Y) reg a b) := by
  have h := (near_regularised hA r hr h0 Y order ho reg).1
  unfold lowerPart
  split_ifs
  · exact h a b
  · have e1 : sizeMat Y reg a b = sizeMat Y reg b a := by
      have := rowSize_symm Y reg [] a b
      unfold rowSize at this
      simpa using this
    have e2 : regularised (gram Y) reg a b = regularised (gram Y) reg b a := linearEquation_symm (gram_symm Y) reg [] a b
    rw [e1, e2]
    exact h b a

include hP hreg

/-- The error of `Ap`. -/
theorem length_apply (p : Vec f ℝ) :
    Spec.length (roundCgApply A P (A.regularised (roundGram r Y order) reg) es p - mulVec (linearEquation (gram Y) reg es).1 p) ≤
      ((1 + u) ^ (Y.length + es.length + f + 8) - 1) * (traceSize Y reg es * Spec.length p) := by
  have hF : 0 ≤ (1 + u) ^ (Y.length + es.length + f + 8) - 1 := by linarith [one_le_growth hA.nonneg (Y.length + es.length + f + 8)]
  have : ∀ a, |(roundCgApply A P (A.regularised (roundGram r Y order) reg) es p - mulVec (linearEquation (gram Y) reg es).1 p) a| ≤
      ((1 + u) ^ (Y.length + es.length + f + 8) - 1) * mulVec (rowSize Y reg es) (fun b => |p b|) a := by
    intro a
    have h1 := near_applyFold hA hP p es (k := Y.length + 5 + (f + 1)) (by omega)
      (near_matVec hA.nonneg (near_lowerGram hA r hr h0 Y order ho (reg := reg)) p _
        (hP.symv (A.regularised (roundGram r Y order) reg) p)) a
    have h2 : mulVec (linearEquation (gram Y) reg es).1 p = cgApply (regularised (gram Y) reg) es p := (cgApply_eq _ _ _ _).symm
    rw [Pi.sub_apply, h2]
    have h3 := (h1.mono (growth_mono hA.nonneg (show _ ≤ Y.length + es.length + f + 8 by omega))).2.1
    refine h3.trans (mul_le_mul_of_nonneg_left (le_of_eq ?_) hF)
    have h4 := congrFun (mulVec_rowSize Y reg es (fun b => |p b|)) a
    have h5 := congrFun (mulVec_rowSize Y reg [] (fun b => |p b|)) a
    have h6 : rowSize Y reg [] = sizeMat Y reg := by
      funext a b
      unfold rowSize
      simp
    rw [h6] at h5
    rw [h4, h5]
    simp
  refine (length_mono this).trans ?_
  rw [length_smul, abs_of_nonneg hF]
  refine mul_le_mul_of_nonneg_left ?_ hF
  have := length_mulVec_rowSize Y hreg es (fun b => |p b|)
  rwa [length_abs] at this

/-- The error of the initial residual. -/
theorem length_start (x : Vec f ℝ) :
    Spec.length (roundCgResidual A P (A.regularised (roundGram r Y order) reg) es x -
        ((linearEquation (gram Y) reg es).2 - mulVec (linearEquation (gram Y) reg es).1 x)) ≤
      ((1 + u) ^ (Y.length + es.length + f + 8) - 1) *
        (traceSize Y reg es * Spec.length x + (es.map fun e => gain e.2 * Spec.length e.1).sum) := by
  have hF : 0 ≤ (1 + u) ^ (Y.length + es.length + f + 8) - 1 := by linarith [one_le_growth hA.nonneg (Y.length + es.length + f + 8)]
  have : ∀ a, |(roundCgResidual A P (A.regularised (roundGram r Y order) reg) es x -
        ((linearEquation (gram Y) reg es).2 - mulVec (linearEquation (gram Y) reg es).1 x)) a| ≤
      ((1 + u) ^ (Y.length + es.length + f + 8) - 1) *
        (mulVec (rowSize Y reg es) (fun b => |x b|) + fun a => (es.map fun e => gain e.2 * |e.1 a|).sum) a := by
    intro a
    have hn : ∀ a, |(fun a => -P.symvNeg (A.regularised (roundGram r Y order) reg) x a) a -
        mulVec (lowerPart (A.regularised (roundGram r Y order) reg)) x a| ≤
        ((1 + u) ^ (f + 3) - 1) * ∑ b, |lowerPart (A.regularised (roundGram r Y order) reg) a b| * |x b| := by
      intro a
      have := hP.symvNeg (A.regularised (roundGram r Y order) reg) x a
      rw [← abs_neg] at this
      refine le_trans (le_of_eq ?_) this
      congr 1
      ring
    have h1 := near_residualFold hA hP x es (k := Y.length + 5 + (f + 3)) (by omega)
      (v := P.symvNeg (A.regularised (roundGram r Y order) reg) x) (w := fun a => -1 * mulVec (regularised (gram Y) reg) x a)
      (fun a => by
        have := (near_matVec hA.nonneg (near_lowerGram hA r hr h0 Y order ho (reg := reg)) x _ hn a).neg
        rw [neg_neg] at this
        rw [neg_one_mul]
        exact this) a
    rw [Pi.sub_apply, ← cgResidual_eq]
    have h3 := (h1.mono (growth_mono hA.nonneg (show _ ≤ Y.length + es.length + f + 8 by omega))).2.1
    refine h3.trans (mul_le_mul_of_nonneg_left (le_of_eq ?_) hF)
    have h4 := congrFun (mulVec_rowSize Y reg es (fun b => |x b|)) a
    have h5 := congrFun (mulVec_rowSize Y reg [] (fun b => |x b|)) a
    have h6 : rowSize Y reg [] = sizeMat Y reg := by
      funext a b
      unfold rowSize
      simp
    rw [h6] at h5
    have h7 : (es.map fun e => (gain e.2 + (|e.2| + 1) * dot (fun b => |e.1 b|) (fun b => |x b|)) * |e.1 a|).sum =
        (es.map fun e => gain e.2 * |e.1 a|).sum +
          (es.map fun e => (|e.2| + 1) * dot (fun b => |e.1 b|) (fun b => |x b|) * |e.1 a|).sum := by
      rw [← List.sum_map_add]
      congr 1
      exact List.map_congr_left fun e _ => by ring
    rw [Pi.add_apply, h4, h5, h7]
    simp only [List.map_nil, List.sum_nil, Pi.add_apply]
    ring
  refine (length_mono this).trans ?_
  rw [length_smul, abs_of_nonneg hF]
  refine mul_le_mul_of_nonneg_left ((length_add_le _ _).trans (add_le_add ?_ ?_)) hF
  · have := length_mulVec_rowSize Y hreg es (fun b => |x b|)
    rwa [length_abs] at this
  · refine (length_list_sum_le es fun e a => gain e.2 * |e.1 a|).trans (le_of_eq ?_)
    congr 1
    refine List.map_congr_left fun e _ => ?_
    rw [length_smul, length_abs, abs_of_nonneg]
    unfold gain
    split_ifs with h
    · exact h.le
    · exact le_rfl

omit hP in
/-- The exact matrix is no larger than its size. -/
theorem length_exact (v : Vec f ℝ) : Spec.length (mulVec (linearEquation (gram Y) reg es).1 v) ≤ traceSize Y reg es * Spec.length v := by
  have hM := (near_system hA r hr h0 Y order ho reg es rfl).1
  have : ∀ a, |mulVec (linearEquation (gram Y) reg es).1 v a| ≤ mulVec (rowSize Y reg es) (fun b => |v b|) a := by
    intro a
    unfold mulVec dot
    refine (Finset.abs_sum_le_sum_abs _ _).trans (Finset.sum_le_sum fun b _ => ?_)
    rw [abs_mul]
    exact mul_le_mul_of_nonneg_right (hM a b).2.2 (abs_nonneg _)
  refine (length_mono this).trans ?_
  have := length_mulVec_rowSize Y hreg es (fun b => |v b|)
  rwa [length_abs] at this

omit hP hr h0 ho hreg in
theorem length_rightSide : Spec.length (linearEquation (gram Y) reg es).2 ≤ (es.map fun e => gain e.2 * Spec.length e.1).sum := by
  have e : (linearEquation (gram Y) reg es).2 = fun a => (es.map fun e => gain e.2 * e.1 a).sum := by
    funext a
    rw [linearEquation_snd]
  rw [e]
  refine (length_list_sum_le es fun e a => gain e.2 * e.1 a).trans (le_of_eq ?_)
  congr 1
  refine List.map_congr_left fun e _ => ?_
  rw [length_smul, abs_of_nonneg]
  unfold gain
  split_ifs with h
  · exact h.le
  · exact le_rfl

end

/-! ## Rounds -/

/-- The error of `axpy` on vectors. -/
theorem length_axpy {A : FloatOps ℝ} {u : ℝ} (hA : A.Accurate u) {k : Nat} {t τ : ℝ} (ht : Near ((1 + u) ^ k) |τ| t τ) (y s : Vec f ℝ) :
    Spec.length (A.axpyVec t y s - axpy τ y s) ≤ ((1 + u) ^ (k + 2) - 1) * (Spec.length s + |τ| * Spec.length y) := by
  have hF : 0 ≤ (1 + u) ^ (k + 2) - 1 := by linarith [one_le_growth hA.nonneg (k + 2)]
  have : ∀ a, |(A.axpyVec t y s - axpy τ y s) a| ≤ ((1 + u) ^ (k + 2) - 1) * ((fun a => |s a|) + fun a => |τ| * |y a|) a := by
    intro a
    exact (near_axpy hA ht (near_self (y a) u) (near_self (s a) u) (m := k + 2) (by omega) (by omega)).2.1
  refine (length_mono this).trans ?_
  rw [length_smul, abs_of_nonneg hF]
  refine mul_le_mul_of_nonneg_left ((length_add_le _ _).trans (le_of_eq ?_)) hF
  rw [length_smul, length_abs, length_abs, abs_abs]

theorem mulVec_add_right (M : Mat f ℝ) (x y : Vec f ℝ) : mulVec M (x + y) = mulVec M x + mulVec M y := by
  funext a
  exact dot_add_right _ _ _

/-- The gap between the true residual and the maintained one. -/
noncomputable def cgGap (M : Mat f ℝ) (b x r : Vec f ℝ) : ℝ := Spec.length (b - mulVec M x - r)

/-- One round widens the gap by little. -/
theorem gap_move {u : ℝ} (hu : 0 ≤ u) {K : Nat} (hhalf : (1 + u) ^ 2 ≤ 3 / 2) {M : Mat f ℝ} {b : Vec f ℝ} {T B X : ℝ}
    (hM : ∀ v, Spec.length (mulVec M v) ≤ T * Spec.length v) (hb : Spec.length b ≤ B) (hT : 0 ≤ T)
    {alpha : ℝ} {p Ap x r x' r' : Vec f ℝ} (hAp : Spec.length (Ap - mulVec M p) ≤ ((1 + u) ^ K - 1) * (T * Spec.length p))
    (ex : Spec.length (x' - axpy alpha p x) ≤ ((1 + u) ^ 2 - 1) * (Spec.length x + |alpha| * Spec.length p))
    (er : Spec.length (r' - axpy (-alpha) Ap r) ≤ ((1 + u) ^ 4 - 1) * (Spec.length r + |alpha| * Spec.length Ap))
    (hX : Spec.length x ≤ X) (hX' : Spec.length x' ≤ X) :
    cgGap M b x' r' ≤ (1 + u) ^ 4 * cgGap M b x r + ((1 + u) ^ (K + 4) - 1) * (12 * T * X + B) := by
  have hG := one_le_growth hu K
  have h4 := one_le_growth hu 4
  have h2 := one_le_growth hu 2
  have h24 := growth_mono hu (show 2 ≤ 4 by omega)
  have hX0 : 0 ≤ X := (length_nonneg _).trans hX
  have hB0 : 0 ≤ B := (length_nonneg _).trans hb
  obtain ⟨δx, hδx⟩ : ∃ d, d = x' - axpy alpha p x := ⟨_, rfl⟩
  obtain ⟨δr, hδr⟩ : ∃ d, d = r' - axpy (-alpha) Ap r := ⟨_, rfl⟩
  obtain ⟨δA, hδA⟩ : ∃ d, d = Ap - mulVec M p := ⟨_, rfl⟩
  rw [← hδx] at ex
  rw [← hδr] at er
  rw [← hδA] at hAp
  -- the new gap
  have e : b - mulVec M x' - r' = (((b - mulVec M x - r) + -mulVec M δx) + fun a => alpha * δA a) + -δr := by
    have h1 : x' = (x + fun a => alpha * p a) + δx := by
      rw [hδx]
      funext a
      simp [axpy]
    have h2 : r' = (r + fun a => -alpha * Ap a) + δr := by
      rw [hδr]
      funext a
      simp [axpy]
    have h3 : mulVec M x' = (mulVec M x + fun a => alpha * mulVec M p a) + mulVec M δx := by
      rw [h1, mulVec_add_right, mulVec_add_right, mulVec_smul]
    rw [h2, h3, hδA]
    funext a
    simp only [Pi.sub_apply, Pi.add_apply, Pi.neg_apply]
    ring
  have hgap : cgGap M b x' r' ≤ cgGap M b x r + T * Spec.length δx + |alpha| * Spec.length δA + Spec.length δr := by
    unfold cgGap
    rw [e]
    have i1 := length_add_le (((b - mulVec M x - r) + -mulVec M δx) + fun a => alpha * δA a) (-δr)
    have i2 := length_add_le ((b - mulVec M x - r) + -mulVec M δx) (fun a => alpha * δA a)
    have i3 := length_add_le (b - mulVec M x - r) (-mulVec M δx)
    rw [length_neg] at i1 i3
    rw [length_smul] at i2
    have i4 := hM δx
    linarith
  -- lengths
  obtain ⟨q, hq⟩ : ∃ q, q = |alpha| * Spec.length p := ⟨_, rfl⟩
  have hq0 : 0 ≤ q := by rw [hq]; exact mul_nonneg (abs_nonneg _) (length_nonneg _)
  have hqX : q ≤ 5 * X := by
    have i1 : q ≤ Spec.length x' + Spec.length x + Spec.length δx := by
      have h1 : (fun a => alpha * p a) = (x' + -x) + -δx := by
        rw [hδx]
        funext a
        simp only [axpy, Pi.sub_apply, Pi.add_apply, Pi.neg_apply]
        ring
      have i2 := length_add_le (x' + -x) (-δx)
      have i3 := length_add_le x' (-x)
      rw [length_neg] at i2 i3
      rw [hq, ← length_smul, h1]
      linarith
    rw [← hq] at ex
    have i4 : ((1 + u) ^ 2 - 1) * (Spec.length x + q) ≤ 1 / 2 * (Spec.length x + q) :=
      mul_le_mul_of_nonneg_right (by linarith) (add_nonneg (length_nonneg _) hq0)
    linarith
  have hr0 : Spec.length r ≤ cgGap M b x r + B + T * X := by
    have h1 : r = ((b + -mulVec M x)) + -(b - mulVec M x - r) := by
      funext a
      simp only [Pi.sub_apply, Pi.add_apply, Pi.neg_apply]
      ring
    have i1 := length_add_le (b + -mulVec M x) (-(b - mulVec M x - r))
    have i2 := length_add_le b (-mulVec M x)
    rw [length_neg] at i1 i2
    rw [← h1] at i1
    have i3 := (hM x).trans (mul_le_mul_of_nonneg_left hX hT)
    unfold cgGap
    linarith
  have hApl : |alpha| * Spec.length Ap ≤ (1 + u) ^ K * (T * q) := by
    have h1 : Ap = δA + mulVec M p := by rw [hδA, sub_add_cancel]
    have i1 := length_add_le δA (mulVec M p)
    rw [← h1] at i1
    have i2 := mul_le_mul_of_nonneg_left (i1.trans (add_le_add hAp (hM p))) (abs_nonneg alpha)
    rw [hq]
    linarith
  have hAd : |alpha| * Spec.length δA ≤ ((1 + u) ^ K - 1) * (T * q) := by
    have := mul_le_mul_of_nonneg_left hAp (abs_nonneg alpha)
    rw [hq]
    linarith
  -- together
  obtain ⟨H, hH⟩ : ∃ H, H = (1 + u) ^ (K + 4) := ⟨_, rfl⟩
  have hHe : H = (1 + u) ^ K * (1 + u) ^ 4 := by rw [hH, pow_add]
  have h4H : (1 + u) ^ 4 ≤ H := by rw [hH]; exact growth_mono hu (by omega)
  rw [← hH]
  rw [← hq] at ex
  generalize (1 + u) ^ 4 = F at *
  generalize (1 + u) ^ 2 = E at *
  generalize (1 + u) ^ K = G at *
  generalize cgGap M b x r = g at *
  have j1 : T * Spec.length δx ≤ T * ((H - 1) * (X + q)) := by
    refine mul_le_mul_of_nonneg_left (ex.trans ?_) hT
    exact mul_le_mul (by linarith) (by linarith) (add_nonneg (length_nonneg _) hq0) (by linarith)
  have j2 : Spec.length δr ≤ (F - 1) * (g + B + T * X) + (F - 1) * (G * (T * q)) := by
    have := er.trans (mul_le_mul_of_nonneg_left (add_le_add hr0 hApl) (by linarith : 0 ≤ F - 1))
    linarith
  have j3 : (F - 1) * (B + T * X) ≤ (H - 1) * (B + T * X) :=
    mul_le_mul_of_nonneg_right (by linarith) (add_nonneg hB0 (mul_nonneg hT hX0))
  have j4 : (G - 1) * (T * q) + (F - 1) * (G * (T * q)) = (H - 1) * (T * q) := by
    rw [hHe]
    ring
  have j5 : (H - 1) * (T * q) ≤ (H - 1) * (T * (5 * X)) :=
    mul_le_mul_of_nonneg_left (mul_le_mul_of_nonneg_left hqX hT) (by linarith)
  have j6 : T * ((H - 1) * (X + q)) = (H - 1) * (T * X) + (H - 1) * (T * q) := by ring
  calc cgGap M b x' r' ≤ g + T * ((H - 1) * (X + q)) + (G - 1) * (T * q) + ((F - 1) * (g + B + T * X) + (F - 1) * (G * (T * q))) := by
        linarith
    _ ≤ F * g + (H - 1) * (T * X) + (H - 1) * (T * q) + (H - 1) * (T * q) + (H - 1) * (B + T * X) := by
        rw [j6]
        linarith
    _ ≤ F * g + (H - 1) * (12 * T * X + B) := by
        linarith

/-- One round of the native solver. -/
theorem gap_step {A : FloatOps ℝ} {u : ℝ} (hA : A.Accurate u) {K : Nat} (hhalf : (1 + u) ^ 2 ≤ 3 / 2) {M : Mat f ℝ} {b : Vec f ℝ} {T B X : ℝ}
    (hM : ∀ v, Spec.length (mulVec M v) ≤ T * Spec.length v) (hb : Spec.length b ≤ B) (hT : 0 ≤ T)
    {alpha : ℝ} {p Ap x r x' r' : Vec f ℝ} (hAp : Spec.length (Ap - mulVec M p) ≤ ((1 + u) ^ K - 1) * (T * Spec.length p))
    (hx' : x' = A.axpyVec alpha p x) (hr' : r' = A.axpyVec (A.mul alpha A.negOne) Ap r) (hX : Spec.length x ≤ X)
    (hX' : Spec.length x' ≤ X) :
    cgGap M b x' r' ≤ (1 + u) ^ 4 * cgGap M b x r + ((1 + u) ^ (K + 4) - 1) * (12 * T * X + B) := by
  have ex := length_axpy hA (near_self alpha u) p x
  have et : Near ((1 + u) ^ 2) |-alpha| (A.mul alpha A.negOne) (-alpha) := by
    have h1 : Near ((1 + u) ^ 1) 1 A.negOne (-1) := by
      have := near_sub hA (near_self 0 u) (near_self 1 u) (m := 1) (by omega) (by omega)
      unfold FloatOps.negOne
      rw [hA.zero, hA.one]
      simpa using this
    have := near_mul hA (near_self alpha u) h1 (m := 2) (by omega)
    simpa using this
  have er := length_axpy hA et Ap r
  rw [← hx', zero_add] at ex
  rw [← hr', abs_neg] at er
  exact gap_move hA.nonneg hhalf hM hb hT hAp ex er hX hX'

/-! ## The loop -/

section
variable {A : FloatOps ℝ} {P : BlasProducts f} {u : ℝ} {G : Mat f ℝ} {es : List (Vec f ℝ × ℝ)} {tol : ℝ}

theorem gap_loop (hA : A.Accurate u) {K : Nat} (hhalf : (1 + u) ^ 2 ≤ 3 / 2) {M : Mat f ℝ} {b : Vec f ℝ} {T B X E : ℝ}
    (hM : ∀ v, Spec.length (mulVec M v) ≤ T * Spec.length v) (hb : Spec.length b ≤ B) (hT : 0 ≤ T) (hX0 : 0 ≤ X)
    (hAp : ∀ p, Spec.length (roundCgApply A P G es p - mulVec M p) ≤ ((1 + u) ^ K - 1) * (T * Spec.length p))
    (hE : E = ((1 + u) ^ (K + 4) - 1) * (12 * T * X + B)) (n i : Nat) (s : CG f ℝ)
    (hgap : cgGap M b s.x s.r ≤ (i + 1) * (1 + u) ^ (4 * i) * E)
    (hX : ∀ j ≤ n, Spec.length (roundCgLoop A P G es tol j s).x ≤ X) :
    cgGap M b (roundCgLoop A P G es tol n s).x (roundCgLoop A P G es tol n s).r ≤ ((i + n : Nat) + 1) * (1 + u) ^ (4 * (i + n)) * E := by
  have hB0 : 0 ≤ B := (length_nonneg _).trans hb
  have hE0 : 0 ≤ E := by
    rw [hE]
    exact mul_nonneg (by linarith [one_le_growth hA.nonneg (K + 4)]) (add_nonneg (mul_nonneg (by linarith) hX0) hB0)
  have hmono : ∀ k l : Nat, k ≤ l → ((k : ℝ) + 1) * (1 + u) ^ (4 * k) * E ≤ (l + 1) * (1 + u) ^ (4 * l) * E := by
    intro k l hkl
    refine mul_le_mul_of_nonneg_right (mul_le_mul ?_ (growth_mono hA.nonneg (by omega)) ?_ (by positivity)) hE0
    · have : (k : ℝ) ≤ l := by exact_mod_cast hkl
      linarith
    · linarith [one_le_growth hA.nonneg (4 * k)]
  induction n generalizing i s with
  | zero => simpa [roundCgLoop] using hgap
  | succ n ih =>
    have hs' : Spec.length (roundCgStep A P G es s).x ≤ X := by
      have := hX 1 (by omega)
      unfold roundCgLoop at this
      dsimp only at this
      split_ifs at this
      · exact this
      · exact this
    have hs : Spec.length s.x ≤ X := hX 0 (by omega)
    have hstep := gap_step hA hhalf hM hb hT (hAp s.p) (x := s.x) (r := s.r) (x' := (roundCgStep A P G es s).x)
      (r' := (roundCgStep A P G es s).r) (alpha := A.div s.rsold (P.dot s.p (roundCgApply A P G es s.p))) rfl rfl hs hs'
    rw [← hE] at hstep
    have hnext : cgGap M b (roundCgStep A P G es s).x (roundCgStep A P G es s).r ≤
        ((i + 1 : Nat) + 1) * (1 + u) ^ (4 * (i + 1)) * E := by
      have h4 := mul_le_mul_of_nonneg_left hgap (by linarith [one_le_growth hA.nonneg 4] : 0 ≤ (1 + u) ^ 4)
      have h5 : E ≤ (1 + u) ^ (4 * (i + 1)) * E := by
        have := mul_le_mul_of_nonneg_right (one_le_growth hA.nonneg (4 * (i + 1))) hE0
        linarith
      have h6 : (1 + u) ^ 4 * ((i + 1) * (1 + u) ^ (4 * i) * E) = (i + 1) * (1 + u) ^ (4 * (i + 1)) * E := by
        rw [mul_add, mul_one, pow_add]
        ring
      push_cast
      linarith
    by_cases hc : A.lt (roundCgStep A P G es s).rsold tol = true
    · have e : roundCgLoop A P G es tol (n + 1) s = ⟨(roundCgStep A P G es s).x, (roundCgStep A P G es s).r, true⟩ := by
        unfold roundCgLoop
        exact if_pos hc
      rw [e]
      exact hnext.trans (hmono _ _ (by omega))
    · have e : ∀ j, roundCgLoop A P G es tol (j + 1) s = roundCgLoop A P G es tol j (roundCgStep A P G es s) := by
        intro j
        rw [roundCgLoop]
        exact if_neg hc
      have := ih (i + 1) (roundCgStep A P G es s) hnext (fun j hj => by rw [← e]; exact hX (j + 1) (by omega))
      rw [e, show i + (n + 1) = i + 1 + n by omega]
      exact this

/-- What the flag says. -/
theorem loop_flag (n : Nat) (s : CG f ℝ) (hs : s.rsold = P.dot s.r s.r) (hlt : A.lt s.rsold tol = false) :
    (roundCgLoop A P G es tol n s).converged =
      A.lt (P.dot (roundCgLoop A P G es tol n s).r (roundCgLoop A P G es tol n s).r) tol := by
  induction n generalizing s with
  | zero =>
    rw [roundCgLoop, ← hs, hlt]
  | succ n ih =>
    rw [roundCgLoop]
    cases hc : A.lt (roundCgStep A P G es s).rsold tol with
    | true =>
      rw [if_pos rfl]
      exact hc.symm
    | false =>
      rw [if_neg (by simp)]
      exact ih _ rfl hc

/-- After convergence further rounds change nothing. -/
theorem loop_more (n k : Nat) (s : CG f ℝ) (h : (roundCgLoop A P G es tol n s).converged = true) :
    roundCgLoop A P G es tol (n + k) s = roundCgLoop A P G es tol n s := by
  induction n generalizing s with
  | zero => cases h
  | succ n ih =>
    rw [show n + 1 + k = n + k + 1 by omega, roundCgLoop, roundCgLoop]
    rw [roundCgLoop] at h
    split_ifs at h ⊢ with hc
    · rfl
    · exact ih _ h

/-- With sums from left to right this is the solver of `Verif.Model.FloatTraining`. -/
theorem roundCgSolve_eq (A : FloatOps ℝ) (G : Mat f ℝ) (tol : ℝ) (steps : Nat) (es : List (Vec f ℝ × ℝ)) (x : Vec f ℝ) :
    (roundCgSolve A A.products G tol steps es x).x = (A.cgSolve (lowerPart G) tol steps es x).1 := by
  have hl : ∀ n s, (roundCgLoop A A.products G es tol n s).x = (A.cgLoop (A.cgApply (lowerPart G) es) tol n s).1 := by
    intro n
    induction n with
    | zero => intro s; rfl
    | succ n ih =>
      intro s
      rw [roundCgLoop, FloatOps.cgLoop]
      have e : roundCgStep A A.products G es s = A.cgStep (A.cgApply (lowerPart G) es) s := rfl
      rw [e]
      split_ifs
      · rfl
      · exact ih _
  unfold roundCgSolve FloatOps.cgSolve
  have e : roundCgResidual A A.products G es x = A.cgResidual (lowerPart G) es x := rfl
  dsimp only
  rw [e]
  show (if A.lt (A.dot _ _) tol then _ else _ : CgEnd f).x = _
  split_ifs
  · rfl
  · exact hl _ _

end

end Implicit
