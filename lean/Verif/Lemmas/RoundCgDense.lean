import Verif.Lemmas.RoundCG
import Verif.Model.RoundCgDense

set_option linter.unusedSectionVars false

namespace Implicit

variable {f : Nat}

section
variable {A : FloatOps ℝ} {Q : CgProducts f} {u : ℝ} {H : Mat f ℝ}

/-! ## Products -/

theorem near_cgDot (hu : 0 ≤ u) (hQ : Q.Accurate u H) (x y : Vec f ℝ) :
    Near ((1 + u) ^ (f + 1)) (dot (fun i => |x i|) (fun i => |y i|)) (Q.dot x y) (dot x y) := by
  refine ⟨one_le_growth hu _, hQ.dot x y, ?_⟩
  unfold dot
  refine (Finset.abs_sum_le_sum_abs _ _).trans (le_of_eq (Finset.sum_congr rfl fun i _ => abs_mul _ _))

theorem near_conf_neg (hA : A.Accurate u) (c : ℝ) (h : ¬0 < c) : Near ((1 + u) ^ 3) (|c| + 1) (A.sub (-c) A.one) (conf c - 1) := by
  have h3 := near_sub hA (near_self (-c) u) (near_self 1 u) (m := 3) (by omega) (by omega)
  rw [hA.one]
  unfold conf
  rw [if_neg h]
  simpa using h3

theorem near_conf_dense (hA : A.Accurate u) (c : ℝ) :
    Near ((1 + u) ^ 3) (|c| + 1) (A.sub (if A.lt c A.zero then -c else c) A.one) (conf c - 1) := by
  rw [hA.zero]
  by_cases hc : c < 0
  · rw [if_pos ((hA.lt _ _).mpr hc)]
    exact near_conf_neg hA c (not_lt.mpr hc.le)
  · rw [if_neg (fun h => hc ((hA.lt _ _).mp h))]
    rcases (not_lt.mp hc).eq_or_lt with h | h
    · subst h
      have h3 := near_sub hA (near_self 0 u) (near_self 1 u) (m := 3) (by omega) (by omega)
      rw [hA.one]
      unfold conf
      simpa using h3
    · exact near_conf_pos hA c h

/-! ## The sums over the entries -/

theorem near_denseApplyFold (hA : A.Accurate u) (hQ : Q.Accurate u H) (p : Vec f ℝ) (es : List (Vec f ℝ × ℝ)) {k : Nat} (hk : f + 6 ≤ k)
    {M v w : Vec f ℝ} (h : ∀ a, Near ((1 + u) ^ k) (M a) (v a) (w a)) (a : Fin f) :
    Near ((1 + u) ^ (k + es.length)) (M a + (es.map fun e => ((|e.2| + 1) * dot (fun b => |e.1 b|) (fun b => |p b|)) * |e.1 a|).sum)
      (es.foldl (fun v e => A.axpyVec (A.mul (A.sub (if A.lt e.2 A.zero then -e.2 else e.2) A.one) (Q.dot e.1 p)) e.1 v) v a)
      (es.foldl (fun v e => axpy (((if e.2 < 0 then -e.2 else e.2) - 1) * dot e.1 p) e.1 v) w a) := by
  induction es generalizing k M v w with
  | nil => simpa using h a
  | cons e es ih =>
    have := ih (k := k + 1) (M := fun a => M a + ((|e.2| + 1) * dot (fun b => |e.1 b|) (fun b => |p b|)) * |e.1 a|)
      (v := A.axpyVec (A.mul (A.sub (if A.lt e.2 A.zero then -e.2 else e.2) A.one) (Q.dot e.1 p)) e.1 v)
      (w := axpy (((if e.2 < 0 then -e.2 else e.2) - 1) * dot e.1 p) e.1 w) (by omega) (fun a => by
        rw [conf_alt]
        exact near_axpy hA (near_mul hA (near_conf_dense hA e.2) (near_cgDot hA.nonneg hQ e.1 p) (m := f + 5) (by omega))
          (near_self (e.1 a) u) (h a) (by omega) (by omega))
    simp only [List.map_cons, List.sum_cons, List.foldl_cons, List.length_cons, ← add_assoc] at this ⊢
    rw [show k + es.length + 1 = k + 1 + es.length by omega]
    exact this

theorem near_denseResidualFold (hA : A.Accurate u) (hQ : Q.Accurate u H) (x : Vec f ℝ) (es : List (Vec f ℝ × ℝ)) {k : Nat} (hk : f + 7 ≤ k)
    {M v w : Vec f ℝ} (h : ∀ a, Near ((1 + u) ^ k) (M a) (v a) (w a)) (a : Fin f) :
    Near ((1 + u) ^ (k + es.length))
      (M a + (es.map fun e => (gain e.2 + (|e.2| + 1) * dot (fun b => |e.1 b|) (fun b => |x b|)) * |e.1 a|).sum)
      (es.foldl (fun r e =>
        if A.lt A.zero e.2 then A.axpyVec (A.axpy (-A.sub e.2 A.one) (Q.dot e.1 x) e.2) e.1 r
        else A.axpyVec (A.mul (-A.sub (-e.2) A.one) (Q.dot e.1 x)) e.1 r) v a)
      (es.foldl (fun r e =>
        if 0 < e.2 then axpy (e.2 - (e.2 - 1) * dot e.1 x) e.1 r
        else axpy (0 - (-e.2 - 1) * dot e.1 x) e.1 r) w a) := by
  induction es generalizing k M v w with
  | nil => simpa using h a
  | cons e es ih =>
    have hstep : ∀ a, Near ((1 + u) ^ (k + 1)) (M a + (gain e.2 + (|e.2| + 1) * dot (fun b => |e.1 b|) (fun b => |x b|)) * |e.1 a|)
        ((if A.lt A.zero e.2 then A.axpyVec (A.axpy (-A.sub e.2 A.one) (Q.dot e.1 x) e.2) e.1 v
          else A.axpyVec (A.mul (-A.sub (-e.2) A.one) (Q.dot e.1 x)) e.1 v) a)
        ((if 0 < e.2 then axpy (e.2 - (e.2 - 1) * dot e.1 x) e.1 w else axpy (0 - (-e.2 - 1) * dot e.1 x) e.1 w) a) := by
      intro a
      rw [hA.zero]
      by_cases hp : 0 < e.2
      · rw [if_pos ((hA.lt _ _).mpr hp), if_pos hp]
        have h2 := near_axpy hA (near_conf_pos hA e.2 hp).neg (near_cgDot hA.nonneg hQ e.1 x) (near_self e.2 u) (m := f + 6)
          (by omega) (by omega)
        have h3 := near_axpy hA h2 (near_self (e.1 a) u) (h a) (m := k + 1) (by omega) (by omega)
        have hg : gain e.2 = |e.2| := by rw [abs_of_pos hp]; exact if_pos hp
        have hc : conf e.2 = e.2 := if_pos hp
        rw [hc, neg_mul, ← sub_eq_add_neg] at h3
        rw [hg]
        exact h3
      · rw [if_neg (fun hc => hp ((hA.lt _ _).mp hc)), if_neg hp]
        have h2 := near_mul hA (near_conf_neg hA e.2 hp).neg (near_cgDot hA.nonneg hQ e.1 x) (m := f + 5) (by omega)
        have h3 := near_axpy hA h2 (near_self (e.1 a) u) (h a) (m := k + 1) (by omega) (by omega)
        have hg : gain e.2 = 0 := if_neg hp
        have hc : conf e.2 = -e.2 := if_neg hp
        rw [hc, neg_mul] at h3
        rw [hg, zero_add, zero_sub]
        exact h3
    have := ih (k := k + 1) (by omega) hstep
    simp only [List.map_cons, List.sum_cons, List.foldl_cons, List.length_cons, ← add_assoc] at this ⊢
    rw [show k + es.length + 1 = k + 1 + es.length by omega]
    exact this

/-! ## The row -/

variable (hA : A.Accurate u) (hQ : Q.Accurate u H) (Y : List (Vec f ℝ)) {reg : ℝ} (hreg : 0 ≤ reg)
    (hH : ∀ a b, Near ((1 + u) ^ (Y.length + 5)) (sizeMat Y reg a b) (H a b) (regularised (gram Y) reg a b))
    (es : List (Vec f ℝ × ℝ))

include hA hQ hreg hH

/-- The error of `Ap`. -/
theorem length_denseApply (p : Vec f ℝ) :
    Spec.length (denseCgApply A Q es p - mulVec (linearEquation (gram Y) reg es).1 p) ≤
      ((1 + u) ^ (Y.length + es.length + f + 8) - 1) * (traceSize Y reg es * Spec.length p) := by
  have hF : 0 ≤ (1 + u) ^ (Y.length + es.length + f + 8) - 1 := by linarith [one_le_growth hA.nonneg (Y.length + es.length + f + 8)]
  have : ∀ a, |(denseCgApply A Q es p - mulVec (linearEquation (gram Y) reg es).1 p) a| ≤
      ((1 + u) ^ (Y.length + es.length + f + 8) - 1) * mulVec (rowSize Y reg es) (fun b => |p b|) a := by
    intro a
    have h1 := near_denseApplyFold hA hQ p es (k := Y.length + 5 + (f + 1)) (by omega)
      (near_matVec hA.nonneg hH p _ (hQ.times p)) a
    have h2 : mulVec (linearEquation (gram Y) reg es).1 p = cgApply (regularised (gram Y) reg) es p := (cgApply_eq _ _ _ _).symm
    rw [Pi.sub_apply, h2]
    have h3 := (h1.mono (growth_mono hA.nonneg (show _ ≤ Y.length + es.length + f + 8 by omega))).2.1
    refine h3.trans (mul_le_mul_of_nonneg_left (le_of_eq ?_) hF)
    have h4 := congrFun (mulVec_rowSize Y reg es (fun b => |p b|)) a
    have h5 := congrFun (mulVec_rowSize Y reg [] (fun b => |p b|)) a
    have h6 : rowSize Y reg [] = sizeMat Y reg := by
      funext a b
      unfold rowSize
      simp
    rw [h6] at h5
    rw [h4, h5]
    simp
  refine (length_mono this).trans ?_
  rw [length_smul, abs_of_nonneg hF]
  refine mul_le_mul_of_nonneg_left ?_ hF
  have := length_mulVec_rowSize Y hreg es (fun b => |p b|)
  rwa [length_abs] at this

/-- The error of the initial residual. -/
theorem length_denseStart (x : Vec f ℝ) :
    Spec.length (denseCgResidual A Q es x -
        ((linearEquation (gram Y) reg es).2 - mulVec (linearEquation (gram Y) reg es).1 x)) ≤
      ((1 + u) ^ (Y.length + es.length + f + 8) - 1) *
        (traceSize Y reg es * Spec.length x + (es.map fun e => gain e.2 * Spec.length e.1).sum) := by
  have hF : 0 ≤ (1 + u) ^ (Y.length + es.length + f + 8) - 1 := by linarith [one_le_growth hA.nonneg (Y.length + es.length + f + 8)]
  have : ∀ a, |(denseCgResidual A Q es x -
        ((linearEquation (gram Y) reg es).2 - mulVec (linearEquation (gram Y) reg es).1 x)) a| ≤
      ((1 + u) ^ (Y.length + es.length + f + 8) - 1) *
        (mulVec (rowSize Y reg es) (fun b => |x b|) + fun a => (es.map fun e => gain e.2 * |e.1 a|).sum) a := by
    intro a
    have hn : ∀ a, |(fun a => -Q.timesNeg x a) a - mulVec H x a| ≤ ((1 + u) ^ (f + 3) - 1) * ∑ b, |H a b| * |x b| := by
      intro a
      have := hQ.timesNeg x a
      rw [← abs_neg] at this
      have hs : 0 ≤ ∑ b, |H a b| * |x b| := Finset.sum_nonneg fun b _ => by positivity
      refine le_trans (le_of_eq ?_) (this.trans (mul_le_mul_of_nonneg_right ?_ hs))
      · congr 1
        ring
      · linarith [growth_mono hA.nonneg (show f + 1 ≤ f + 3 by omega)]
    have h1 := near_denseResidualFold hA hQ x es (k := Y.length + 5 + (f + 3)) (by omega)
      (v := Q.timesNeg x) (w := fun a => -1 * mulVec (regularised (gram Y) reg) x a)
      (fun a => by
        have := (near_matVec hA.nonneg hH x _ hn a).neg
        rw [neg_neg] at this
        rw [neg_one_mul]
        exact this) a
    rw [Pi.sub_apply, ← cgResidual_eq]
    have h3 := (h1.mono (growth_mono hA.nonneg (show _ ≤ Y.length + es.length + f + 8 by omega))).2.1
    refine h3.trans (mul_le_mul_of_nonneg_left (le_of_eq ?_) hF)
    have h4 := congrFun (mulVec_rowSize Y reg es (fun b => |x b|)) a
    have h5 := congrFun (mulVec_rowSize Y reg [] (fun b => |x b|)) a
    have h6 : rowSize Y reg [] = sizeMat Y reg := by
      funext a b
      unfold rowSize
      simp
    rw [h6] at h5
    have h7 : (es.map fun e => (gain e.2 + (|e.2| + 1) * dot (fun b => |e.1 b|) (fun b => |x b|)) * |e.1 a|).sum =
        (es.map fun e => gain e.2 * |e.1 a|).sum +
          (es.map fun e => (|e.2| + 1) * dot (fun b => |e.1 b|) (fun b => |x b|) * |e.1 a|).sum := by
      rw [← List.sum_map_add]
      congr 1
      exact List.map_congr_left fun e _ => by ring
    rw [Pi.add_apply, h4, h5, h7]
    simp only [List.map_nil, List.sum_nil, Pi.add_apply]
    ring
  refine (length_mono this).trans ?_
  rw [length_smul, abs_of_nonneg hF]
  refine mul_le_mul_of_nonneg_left ((length_add_le _ _).trans (add_le_add ?_ ?_)) hF
  · have := length_mulVec_rowSize Y hreg es (fun b => |x b|)
    rwa [length_abs] at this
  · refine (length_list_sum_le es fun e a => gain e.2 * |e.1 a|).trans (le_of_eq ?_)
    congr 1
    refine List.map_congr_left fun e _ => ?_
    rw [length_smul, length_abs, abs_of_nonneg]
    unfold gain
    split_ifs with h
    · exact h.le
    · exact le_rfl

end

/-! ## The rounds -/

section
variable {A : FloatOps ℝ} {Q : CgProducts f} {u : ℝ} {es : List (Vec f ℝ × ℝ)} {tol : ℝ}

theorem gap_denseLoop (hA : A.Accurate u) {K : Nat} (hhalf : (1 + u) ^ 2 ≤ 3 / 2) {M : Mat f ℝ} {b : Vec f ℝ} {T B X E : ℝ}
    (hM : ∀ v, Spec.length (mulVec M v) ≤ T * Spec.length v) (hb : Spec.length b ≤ B) (hT : 0 ≤ T) (hX0 : 0 ≤ X)
    (hAp : ∀ p, Spec.length (denseCgApply A Q es p - mulVec M p) ≤ ((1 + u) ^ K - 1) * (T * Spec.length p))
    (hE : E = ((1 + u) ^ (K + 4) - 1) * (12 * T * X + B)) (n i : Nat) (s : CG f ℝ)
    (hgap : cgGap M b s.x s.r ≤ (i + 1) * (1 + u) ^ (4 * i) * E)
    (hX : ∀ j ≤ n, Spec.length (denseCgLoop A Q es tol j s).x ≤ X) :
    cgGap M b (denseCgLoop A Q es tol n s).x (denseCgLoop A Q es tol n s).r ≤ ((i + n : Nat) + 1) * (1 + u) ^ (4 * (i + n)) * E := by
  have hu := hA.nonneg
  have hB0 : 0 ≤ B := (length_nonneg _).trans hb
  have hE0 : 0 ≤ E := by
    rw [hE]
    exact mul_nonneg (by linarith [one_le_growth hu (K + 4)]) (add_nonneg (mul_nonneg (by linarith) hX0) hB0)
  have hmono : ∀ k l : Nat, k ≤ l → ((k : ℝ) + 1) * (1 + u) ^ (4 * k) * E ≤ (l + 1) * (1 + u) ^ (4 * l) * E := by
    intro k l hkl
    refine mul_le_mul_of_nonneg_right (mul_le_mul ?_ (growth_mono hu (by omega)) ?_ (by positivity)) hE0
    · have : (k : ℝ) ≤ l := by exact_mod_cast hkl
      linarith
    · linarith [one_le_growth hu (4 * k)]
  induction n generalizing i s with
  | zero => simpa [denseCgLoop] using hgap
  | succ n ih =>
    have hs' : Spec.length (denseCgStep A Q es s).x ≤ X := by
      have := hX 1 (by omega)
      unfold denseCgLoop at this
      dsimp only at this
      split_ifs at this
      · exact this
      · exact this
    have hs : Spec.length s.x ≤ X := hX 0 (by omega)
    have hstep : cgGap M b (denseCgStep A Q es s).x (denseCgStep A Q es s).r ≤
        (1 + u) ^ 4 * cgGap M b s.x s.r + ((1 + u) ^ (K + 4) - 1) * (12 * T * X + B) := by
      refine gap_move hu hhalf hM hb hT (hAp s.p) (alpha := A.div s.rsold (Q.dot s.p (denseCgApply A Q es s.p))) ?_ ?_ hs hs'
      · have := length_axpy hA (near_self (A.div s.rsold (Q.dot s.p (denseCgApply A Q es s.p))) u) s.p s.x
        rw [zero_add] at this
        exact this
      · have := length_axpy hA (near_self (-A.div s.rsold (Q.dot s.p (denseCgApply A Q es s.p))) u) (denseCgApply A Q es s.p) s.r
        rw [zero_add, abs_neg] at this
        refine this.trans (mul_le_mul_of_nonneg_right ?_ (add_nonneg (length_nonneg _) (mul_nonneg (abs_nonneg _) (length_nonneg _))))
        linarith [growth_mono hu (show 2 ≤ 4 by omega)]
    rw [← hE] at hstep
    have hnext : cgGap M b (denseCgStep A Q es s).x (denseCgStep A Q es s).r ≤
        ((i + 1 : Nat) + 1) * (1 + u) ^ (4 * (i + 1)) * E := by
      have h4 := mul_le_mul_of_nonneg_left hgap (by linarith [one_le_growth hu 4] : 0 ≤ (1 + u) ^ 4)
      have h5 : E ≤ (1 + u) ^ (4 * (i + 1)) * E := by
        have := mul_le_mul_of_nonneg_right (one_le_growth hu (4 * (i + 1))) hE0
        linarith
      have h6 : (1 + u) ^ 4 * ((i + 1) * (1 + u) ^ (4 * i) * E) = (i + 1) * (1 + u) ^ (4 * (i + 1)) * E := by
        rw [mul_add, mul_one, pow_add]
        ring
      push_cast
      linarith
    by_cases hc : A.lt (denseCgStep A Q es s).rsold tol = true
    · have e : denseCgLoop A Q es tol (n + 1) s = ⟨(denseCgStep A Q es s).x, (denseCgStep A Q es s).r, true⟩ := by
        unfold denseCgLoop
        exact if_pos hc
      rw [e]
      exact hnext.trans (hmono _ _ (by omega))
    · have e : ∀ j, denseCgLoop A Q es tol (j + 1) s = denseCgLoop A Q es tol j (denseCgStep A Q es s) := by
        intro j
        rw [denseCgLoop]
        exact if_neg hc
      have := ih (i + 1) (denseCgStep A Q es s) hnext (fun j hj => by rw [← e]; exact hX (j + 1) (by omega))
      rw [e, show i + (n + 1) = i + 1 + n by omega]
      exact this

/-- What the flag says. -/
theorem denseLoop_flag (n : Nat) (s : CG f ℝ) (hs : s.rsold = Q.dot s.r s.r) (hlt : A.lt s.rsold tol = false) :
    (denseCgLoop A Q es tol n s).converged =
      A.lt (Q.dot (denseCgLoop A Q es tol n s).r (denseCgLoop A Q es tol n s).r) tol := by
  induction n generalizing s with
  | zero =>
    rw [denseCgLoop, ← hs, hlt]
  | succ n ih =>
    rw [denseCgLoop]
    cases hc : A.lt (denseCgStep A Q es s).rsold tol with
    | true =>
      rw [if_pos rfl]
      exact hc.symm
    | false =>
      rw [if_neg (by simp)]
      exact ih _ rfl hc

theorem denseSolve_flag (steps : Nat) (x : Vec f ℝ) : (denseCgSolve A Q tol steps es x).converged =
    A.lt (Q.dot (denseCgSolve A Q tol steps es x).r (denseCgSolve A Q tol steps es x).r) tol := by
  unfold denseCgSolve
  dsimp only
  cases hc : A.lt (Q.dot (denseCgResidual A Q es x) (denseCgResidual A Q es x)) tol with
  | true =>
    rw [if_pos rfl]
    exact hc.symm
  | false =>
    rw [if_neg (by simp)]
    exact denseLoop_flag _ _ rfl hc

/-- After convergence further rounds change nothing. -/
theorem denseLoop_more (n k : Nat) (s : CG f ℝ) (h : (denseCgLoop A Q es tol n s).converged = true) :
    denseCgLoop A Q es tol (n + k) s = denseCgLoop A Q es tol n s := by
  induction n generalizing s with
  | zero => cases h
  | succ n ih =>
    rw [show n + 1 + k = n + k + 1 by omega, denseCgLoop, denseCgLoop]
    rw [denseCgLoop] at h
    split_ifs at h ⊢ with hc
    · rfl
    · exact ih _ h

theorem denseSolve_more (n k : Nat) (x : Vec f ℝ) (h : (denseCgSolve A Q tol n es x).converged = true) :
    denseCgSolve A Q tol (n + k) es x = denseCgSolve A Q tol n es x := by
  unfold denseCgSolve at h ⊢
  dsimp only at h ⊢
  split_ifs at h ⊢
  · rfl
  · exact denseLoop_more _ _ _ h

end

/-! ## The whole row -/

section
variable {A : FloatOps ℝ} {Q : CgProducts f} {u : ℝ} {H : Mat f ℝ} (hA : A.Accurate u) (hQ : Q.Accurate u H) (Y : List (Vec f ℝ)) {reg : ℝ}
    (hreg : 0 ≤ reg) (hH : ∀ a b, Near ((1 + u) ^ (Y.length + 5)) (sizeMat Y reg a b) (H a b) (regularised (gram Y) reg a b))
    (es : List (Vec f ℝ × ℝ)) (tol : ℝ) (steps : Nat) (x₀ : Vec f ℝ)

include hA hQ hreg hH

/-- The maintained residual. -/
theorem gap_denseSolve (hhalf : (1 + u) ^ 2 ≤ 3 / 2) {X : ℝ} (hX : ∀ j ≤ steps, Spec.length (denseCgSolve A Q tol j es x₀).x ≤ X)
    (hM : ∀ v, Spec.length (mulVec (linearEquation (gram Y) reg es).1 v) ≤ traceSize Y reg es * Spec.length v)
    (hT : 0 ≤ traceSize Y reg es) :
    cgGap (linearEquation (gram Y) reg es).1 (linearEquation (gram Y) reg es).2 (denseCgSolve A Q tol steps es x₀).x
        (denseCgSolve A Q tol steps es x₀).r ≤
      (steps + 1) * (1 + u) ^ (4 * steps) * (((1 + u) ^ (Y.length + es.length + f + 8 + 4) - 1) *
        (12 * traceSize Y reg es * X + (es.map fun e => gain e.2 * Spec.length e.1).sum)) := by
  have hX0 : 0 ≤ X := (length_nonneg _).trans (hX steps le_rfl)
  have hb := length_rightSide hA (reg := reg) Y es
  have hAp := length_denseApply hA hQ Y hreg hH es
  have hst := length_denseStart hA hQ Y hreg hH es x₀
  have hB0 : 0 ≤ (es.map fun e => gain e.2 * Spec.length e.1).sum := (length_nonneg _).trans hb
  obtain ⟨B, hB⟩ : ∃ B, B = (es.map fun e => gain e.2 * Spec.length e.1).sum := ⟨_, rfl⟩
  obtain ⟨E, hE⟩ : ∃ E, E = ((1 + u) ^ (Y.length + es.length + f + 8 + 4) - 1) * (12 * traceSize Y reg es * X + B) := ⟨_, rfl⟩
  rw [← hB] at hb hst hB0 ⊢
  rw [← hE]
  have hE0 : 0 ≤ E := by
    rw [hE]
    exact mul_nonneg (by linarith [one_le_growth hA.nonneg (Y.length + es.length + f + 8 + 4)])
      (add_nonneg (mul_nonneg (by linarith) hX0) hB0)
  have hx0 : Spec.length x₀ ≤ X := by
    have := hX 0 (by omega)
    unfold denseCgSolve at this
    dsimp only at this
    split_ifs at this <;> exact this
  have hstart : cgGap (linearEquation (gram Y) reg es).1 (linearEquation (gram Y) reg es).2 x₀ (denseCgResidual A Q es x₀) ≤ E := by
    unfold cgGap
    rw [← length_neg, neg_sub]
    refine hst.trans ?_
    rw [hE]
    refine mul_le_mul (by linarith [growth_mono hA.nonneg (show Y.length + es.length + f + 8 ≤ Y.length + es.length + f + 8 + 4 by omega)])
      (add_le_add_left ?_ _) (add_nonneg (mul_nonneg hT (length_nonneg _)) hB0)
      (by linarith [one_le_growth hA.nonneg (Y.length + es.length + f + 8 + 4)])
    have := mul_le_mul_of_nonneg_left hx0 hT
    nlinarith [mul_nonneg hT hX0]
  by_cases hc : A.lt (Q.dot (denseCgResidual A Q es x₀) (denseCgResidual A Q es x₀)) tol = true
  · have e1 : denseCgSolve A Q tol steps es x₀ = ⟨x₀, denseCgResidual A Q es x₀, true⟩ := by
      unfold denseCgSolve
      exact if_pos hc
    rw [e1]
    refine hstart.trans ?_
    have h1 : (1 : ℝ) ≤ (steps + 1) * (1 + u) ^ (4 * steps) := by
      have := one_le_growth hA.nonneg (4 * steps)
      have h2 : (0 : ℝ) ≤ steps := by positivity
      nlinarith
    have := mul_le_mul_of_nonneg_right h1 hE0
    linarith
  · have e1 : ∀ j, denseCgSolve A Q tol j es x₀ = denseCgLoop A Q es tol j
        ⟨x₀, denseCgResidual A Q es x₀, denseCgResidual A Q es x₀, Q.dot (denseCgResidual A Q es x₀) (denseCgResidual A Q es x₀)⟩ := by
      intro j
      unfold denseCgSolve
      exact if_neg hc
    have := gap_denseLoop hA hhalf hM hb hT hX0 hAp hE steps 0
      ⟨x₀, denseCgResidual A Q es x₀, denseCgResidual A Q es x₀, Q.dot (denseCgResidual A Q es x₀) (denseCgResidual A Q es x₀)⟩
      (tol := tol) (by simpa using hstart) (fun j hj => by rw [← e1]; exact hX j hj)
    rw [zero_add] at this
    rw [e1]
    exact this

end

end Implicit
