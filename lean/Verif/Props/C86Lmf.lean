import Verif.Props.C86
import Mathlib.Analysis.Calculus.Deriv.MeanValue
import Mathlib.Algebra.Order.BigOperators.Ring.Finset
/-!
# C86 — A training sample improves what it was drawn for: LMF

One row, in exact real arithmetic, with the negatives it drew.
-/

set_option linter.unusedSectionVars false

namespace Implicit

open Spec

/-! ## The logistic loss has curvature at most 1/4 -/

theorem hasDerivAt_logistic (x : ℝ) : HasDerivAt logistic (logistic x * (1 - logistic x)) x := by
  have h2 : HasDerivAt (fun y => 1 + Real.exp (-y)) (-Real.exp (-x)) x := by
    have := ((hasDerivAt_neg x).exp).const_add 1
    simpa using this
  have h3 := h2.inv (by positivity)
  have e : logistic x * (1 - logistic x) = - -Real.exp (-x) / (1 + Real.exp (-x)) ^ 2 := by
    unfold logistic
    field_simp
    ring
  rw [e]
  refine h3.congr_of_eventuallyEq (Filter.Eventually.of_forall fun y => ?_)
  simp [logistic]

theorem logistic_slope (a b : ℝ) (h : a ≤ b) : logistic b ≤ logistic a + (b - a) / 4 := by
  have hm : Monotone fun x => x / 4 - logistic x := by
    refine monotone_of_hasDerivAt_nonneg (f' := fun x => 1 / 4 - logistic x * (1 - logistic x))
      (fun x => ((hasDerivAt_id x).div_const 4).sub (hasDerivAt_logistic x)) fun x => ?_
    have := sq_nonneg (logistic x - 1 / 2)
    show (0 : ℝ) ≤ 1 / 4 - logistic x * (1 - logistic x)
    nlinarith
  have := hm h
  simp only at this
  linarith

/-- `ln(1 + e^(a + h)) ≤ ln(1 + e^a) + σ(a) h + h² / 8`. -/
theorem softplus_bound (a h : ℝ) :
    Real.log (1 + Real.exp (a + h)) ≤ Real.log (1 + Real.exp a) + logistic a * h + h * h / 8 := by
  set φ : ℝ → ℝ := fun t => logistic a * t + t * t / 8 - Real.log (1 + Real.exp (a + t)) with hφ
  have hd : ∀ t, HasDerivAt φ (logistic a + t / 4 - logistic (a + t)) t := by
    intro t
    have h1 : HasDerivAt (fun t : ℝ => logistic a * t) (logistic a) t := by
      simpa using (hasDerivAt_id t).const_mul (logistic a)
    have h2 : HasDerivAt (fun t : ℝ => t * t / 8) (t / 4) t := by
      have := ((hasDerivAt_id t).mul (hasDerivAt_id t)).div_const 8
      have e : t / 4 = (1 * id t + id t * 1) / 8 := by simp; ring
      rw [e]
      exact this
    have h3 : HasDerivAt (fun t : ℝ => Real.log (1 + Real.exp (a + t))) (logistic (a + t)) t := by
      have := (hasDerivAt_log_one_add_exp (a + t)).comp t ((hasDerivAt_id t).const_add a)
      rw [mul_one] at this
      exact this
    exact (h1.add h2).sub h3
  have hcont : ∀ s, ContinuousOn φ s := fun s t _ => (hd t).continuousAt.continuousWithinAt
  have h0 : φ 0 = -Real.log (1 + Real.exp a) := by simp [hφ]
  have hge : φ 0 ≤ φ h := by
    rcases lt_trichotomy h 0 with hh | hh | hh
    · obtain ⟨c, ⟨hc1, hc2⟩, hc⟩ := exists_hasDerivAt_eq_slope φ _ hh (hcont _) fun t _ => hd t
      have := logistic_slope (a + c) a (by linarith)
      have h4 : logistic a + c / 4 - logistic (a + c) ≤ 0 := by linarith
      rw [hc, div_le_iff₀ (by linarith)] at h4
      linarith
    · rw [hh]
    · obtain ⟨c, ⟨hc1, hc2⟩, hc⟩ := exists_hasDerivAt_eq_slope φ _ hh (hcont _) fun t _ => hd t
      have := logistic_slope a (a + c) (by linarith)
      have h4 : 0 ≤ logistic a + c / 4 - logistic (a + c) := by linarith
      rw [hc, le_div_iff₀ (by linarith)] at h4
      linarith
  rw [h0] at hge
  simp only [hφ] at hge
  linarith

/-! ## The objective of a row -/

variable {f : Nat}

theorem dot_move (x h y : Vec f ℝ) : (∑ j, (x j + h j) * y j) = dot x y + dot h y := by
  unfold dot
  rw [← Finset.sum_add_distrib]
  exact Finset.sum_congr rfl fun j _ => by ring

theorem dot_sq_le (h y : Vec f ℝ) : dot h y * dot h y ≤ (∑ j, h j * h j) * ∑ j, y j * y j := by
  have := Finset.sum_mul_sq_le_sq_mul_sq Finset.univ h y
  simpa [dot, sq] using this

/-- The slope of the objective along a direction. -/
theorem lmf_slope (reg : ℝ) (pos : List (Vec f ℝ × ℝ)) (neg : List (Vec f ℝ)) (x h : Vec f ℝ) :
    (∑ a, (lmfDeriv lmfSigmoid x pos neg a - reg * x a) * h a) =
      (pos.map fun e => (e.2 - logistic (dot x e.1) * e.2) * dot h e.1).sum -
        (neg.map fun y => logistic (dot x y) * dot h y).sum - reg * dot x h := by
  have hsig : ∀ y, lmfSigmoid y = logistic y := fun y => (C37_sigmoid y).1
  have hswap : ∀ {A : Type} (l : List A) (w : A → ℝ) (y : A → Vec f ℝ),
      (∑ a, (l.map fun e => w e * y e a).sum * h a) = (l.map fun e => w e * dot h (y e)).sum := by
    intro A l w y
    induction l with
    | nil => simp
    | cons e l ih =>
      simp only [List.map_cons, List.sum_cons]
      rw [← ih]
      unfold dot
      rw [Finset.mul_sum, ← Finset.sum_add_distrib]
      exact Finset.sum_congr rfl fun j _ => by ring
  have e1 : ∀ a, lmfDeriv lmfSigmoid x pos neg a =
      (pos.map fun e => (e.2 - logistic (dot x e.1) * e.2) * e.1 a).sum -
        (neg.map fun y => logistic (dot x y) * y a).sum := by
    intro a
    unfold lmfDeriv
    rw [lmf_foldl_neg, lmf_foldl_posSig, lmf_foldl_pos]
    simp only [hsig]
    congr 1
    induction pos with
    | nil => simp
    | cons e pos ih =>
      simp only [List.map_cons, List.sum_cons] at ih ⊢
      linarith
  have e2 : (∑ a, reg * x a * h a) = reg * dot x h := by
    unfold dot
    rw [Finset.mul_sum]
    exact Finset.sum_congr rfl fun j _ => by ring
  rw [← hswap pos (fun e => e.2 - logistic (dot x e.1) * e.2) Prod.fst,
    ← hswap neg (fun y => logistic (dot x y)) (fun y => y), ← e2, ← Finset.sum_sub_distrib,
    ← Finset.sum_sub_distrib]
  refine Finset.sum_congr rfl fun a _ => ?_
  rw [e1]
  ring

/-- The objective lies above its quadratic model. -/
theorem lmf_quadratic (reg : ℝ) (pos : List (Vec f ℝ × ℝ)) (hpos : ∀ e ∈ pos, 0 ≤ e.2)
    (neg : List (Vec f ℝ)) (x h : Vec f ℝ) :
    lmfObjective reg pos neg x + (∑ a, (lmfDeriv lmfSigmoid x pos neg a - reg * x a) * h a) -
        lmfCurvature reg pos neg / 2 * (∑ a, h a * h a) ≤
      lmfObjective reg pos neg fun a => x a + h a := by
  set H := ∑ a, h a * h a with hH
  have hH0 : 0 ≤ H := Finset.sum_nonneg fun a _ => mul_self_nonneg _
  have hp : (pos.map fun e => e.2 * dot x e.1 - e.2 * Real.log (1 + Real.exp (dot x e.1))).sum +
      (pos.map fun e => (e.2 - logistic (dot x e.1) * e.2) * dot h e.1).sum -
      H / 8 * (pos.map fun e => e.2 * ∑ j, e.1 j * e.1 j).sum ≤
      (pos.map fun e => e.2 * (dot x e.1 + dot h e.1) -
        e.2 * Real.log (1 + Real.exp (dot x e.1 + dot h e.1))).sum := by
    induction pos with
    | nil => simp
    | cons e pos ih =>
      simp only [List.map_cons, List.sum_cons]
      have h1 := ih fun e' he' => hpos e' (by simp [he'])
      have h2 := mul_le_mul_of_nonneg_left (softplus_bound (dot x e.1) (dot h e.1)) (hpos e (by simp))
      have h3 := mul_le_mul_of_nonneg_left (dot_sq_le h e.1) (hpos e (by simp))
      rw [← hH] at h3
      nlinarith
  have hn : -(neg.map fun y => Real.log (1 + Real.exp (dot x y))).sum -
      (neg.map fun y => logistic (dot x y) * dot h y).sum -
      H / 8 * (neg.map fun y => ∑ j, y j * y j).sum ≤
      -(neg.map fun y => Real.log (1 + Real.exp (dot x y + dot h y))).sum := by
    clear hp
    induction neg with
    | nil => simp
    | cons y neg ih =>
      simp only [List.map_cons, List.sum_cons]
      have h2 := softplus_bound (dot x y) (dot h y)
      have h3 := dot_sq_le h y
      rw [← hH] at h3
      nlinarith
  have hr : (∑ j, (x j + h j) * (x j + h j)) = dot x x + 2 * dot x h + H := by
    rw [hH]
    unfold dot
    rw [Finset.mul_sum, ← Finset.sum_add_distrib, ← Finset.sum_add_distrib]
    exact Finset.sum_congr rfl fun j _ => by ring
  rw [lmf_slope]
  unfold lmfObjective lmfCurvature
  simp only [dot_move, hr]
  have ed : ∀ y : Vec f ℝ, (∑ j, x j * y j) = dot x y := fun _ => rfl
  simp only [ed]
  nlinarith

/-- The update of a row with stored entries. -/
theorem lmfRow_step (eps lr reg : ℝ) (pos : List (Vec f ℝ × ℝ)) (hpos : pos ≠ [])
    (neg : List (Vec f ℝ)) (x s : Vec f ℝ) (a : Fin f) :
    let g := fun a => lmfDeriv lmfSigmoid x pos neg a - reg * x a
    (lmfRow lmfSigmoid Real.sqrt eps lr reg pos neg x s).1 a =
      x a + lr / Real.sqrt (eps + (s a + g a * g a)) * g a := by
  have hne : pos.isEmpty = false := by simpa using hpos
  intro g
  unfold lmfRow
  rw [hne]
  rfl

/-- **C86** (LMF steps).  An update moves no factor by more than the learning rate. -/
theorem C86_lmf_step_size (eps lr reg : ℝ) (heps : 0 < eps) (hlr : 0 < lr) (pos : List (Vec f ℝ × ℝ))
    (neg : List (Vec f ℝ)) (x s : Vec f ℝ) (hs : ∀ a, 0 ≤ s a) (a : Fin f) :
    |(lmfRow lmfSigmoid Real.sqrt eps lr reg pos neg x s).1 a - x a| < lr := by
  by_cases hpos : pos = []
  · subst hpos
    simpa [lmfRow] using hlr
  · rw [lmfRow_step eps lr reg pos hpos]
    set g := lmfDeriv lmfSigmoid x pos neg a - reg * x a
    have hg : |g| < Real.sqrt (eps + (s a + g * g)) := by
      rw [Real.lt_sqrt (abs_nonneg _), sq_abs]
      have := hs a
      nlinarith
    have hp : 0 < Real.sqrt (eps + (s a + g * g)) := lt_of_le_of_lt (abs_nonneg _) hg
    rw [add_sub_cancel_left, abs_mul, abs_of_pos (div_pos hlr hp), div_mul_eq_mul_div,
      div_lt_iff₀ hp]
    exact mul_lt_mul_of_pos_left hg hlr

/-- **C86** (LMF).  If the confidences of a row are not negative and the squared derivatives summed so far
are large enough for the curvature of its objective, `η L ≤ 2 √(ε + Σ g²)`, the update does not lower the
log-likelihood of the row; it raises it by at least half of the predicted gain if `η L ≤ √(ε + Σ g²)`. -/
theorem C86_lmf (eps lr reg : ℝ) (heps : 0 < eps) (hlr : 0 < lr) (pos : List (Vec f ℝ × ℝ))
    (hconf : ∀ e ∈ pos, 0 ≤ e.2) (neg : List (Vec f ℝ)) (x s : Vec f ℝ) (hs : ∀ a, 0 ≤ s a) :
    let r := lmfRow lmfSigmoid Real.sqrt eps lr reg pos neg x s
    ((∀ a, lr * lmfCurvature reg pos neg ≤ 2 * Real.sqrt (eps + r.2 a)) →
      lmfObjective reg pos neg x ≤ lmfObjective reg pos neg r.1) ∧
    ((∀ a, lr * lmfCurvature reg pos neg ≤ Real.sqrt (eps + r.2 a)) →
      ∃ g, IsGradient (lmfObjective reg pos neg) x g ∧
        lmfObjective reg pos neg x + (∑ a, g a * (r.1 a - x a)) / 2 ≤ lmfObjective reg pos neg r.1 ∧
        (pos ≠ [] → (∃ a, g a ≠ 0) → lmfObjective reg pos neg x < lmfObjective reg pos neg r.1)) := by
  intro r
  by_cases hpos : pos = []
  · subst hpos
    have hr : r.1 = x := by simp [r, lmfRow]
    rw [hr]
    exact ⟨fun _ => le_refl _, fun _ => ⟨_, C37_lmf reg [] neg x, by simp, fun h => absurd rfl h⟩⟩
  set g : Vec f ℝ := fun a => lmfDeriv lmfSigmoid x pos neg a - reg * x a with hg
  have hne : pos.isEmpty = false := by simpa using hpos
  have hr2 : ∀ a, r.2 a = s a + g a * g a := by
    intro a
    show (lmfRow lmfSigmoid Real.sqrt eps lr reg pos neg x s).2 a = _
    unfold lmfRow
    rw [hne]
    rfl
  set c : Vec f ℝ := fun a => lr / Real.sqrt (eps + r.2 a) with hc
  have hsq : ∀ a, 0 < Real.sqrt (eps + r.2 a) := by
    intro a
    refine Real.sqrt_pos.mpr ?_
    rw [hr2]
    have := hs a
    have := mul_self_nonneg (g a)
    linarith
  have hc0 : ∀ a, 0 < c a := fun a => div_pos hlr (hsq a)
  have hr1 : ∀ a, r.1 a = x a + c a * g a := by
    intro a
    have h1 := lmfRow_step eps lr reg pos hpos neg x s a
    refine h1.trans ?_
    simp only [hc, hr2]
    rfl
  have hr1' : r.1 = fun a => x a + c a * g a := funext hr1
  have hq := lmf_quadratic reg pos hconf neg x (fun a => c a * g a)
  rw [← hr1'] at hq
  have hstep : ∀ a, g a * (r.1 a - x a) = c a * (g a * g a) := by intro a; rw [hr1 a]; ring
  have hgain : (∑ a, (lmfDeriv lmfSigmoid x pos neg a - reg * x a) * (c a * g a)) =
      ∑ a, c a * (g a * g a) := Finset.sum_congr rfl fun a _ => by
    show g a * (c a * g a) = _
    ring
  rw [hgain] at hq
  set L := lmfCurvature reg pos neg with hL
  have hloss : ∀ K : ℝ, (∀ a, lr * L ≤ K * Real.sqrt (eps + r.2 a)) →
      L / 2 * (∑ a, c a * g a * (c a * g a)) ≤ K / 2 * ∑ a, c a * (g a * g a) := by
    intro K hK
    rw [Finset.mul_sum, Finset.mul_sum]
    refine Finset.sum_le_sum fun a _ => ?_
    have h1 : L * c a ≤ K := by
      simp only [hc]
      rw [mul_div_assoc', div_le_iff₀ (hsq a), mul_comm L]
      exact hK a
    have h2 : L * c a * (c a * (g a * g a)) ≤ K * (c a * (g a * g a)) :=
      mul_le_mul_of_nonneg_right h1 (mul_nonneg (hc0 a).le (mul_self_nonneg _))
    nlinarith
  constructor
  · intro h
    have := hloss 2 h
    linarith
  · intro h
    have h1 := hloss 1 fun a => by rw [one_mul]; exact h a
    have hs' : (∑ a, g a * (r.1 a - x a)) = ∑ a, c a * (g a * g a) :=
      Finset.sum_congr rfl fun a _ => hstep a
    refine ⟨g, C37_lmf reg pos neg x, ?_, fun _ hex => ?_⟩
    · rw [hs']; linarith
    · obtain ⟨a, ha⟩ := hex
      have hpos' : 0 < ∑ a, c a * (g a * g a) :=
        Finset.sum_pos' (fun b _ => mul_nonneg (hc0 b).le (mul_self_nonneg _))
          ⟨a, Finset.mem_univ a, mul_pos (hc0 a) (mul_self_pos.mpr ha)⟩
      linarith

/-- **C86** (LMF overshoots).  With the default learning rate 1 and an empty history an update moves a factor
by almost 1 however small the derivative is: here it carries the row past the optimum, to a lower
log-likelihood (without penalty). -/
theorem C86_lmf_overshoot_violated :
    let pos : List (Vec 1 ℝ × ℝ) := [(fun _ => 1, 1)]
    let neg : List (Vec 1 ℝ) := [fun _ => 1]
    let x : Vec 1 ℝ := fun _ => Real.log (3 / 2)
    let r := lmfRow lmfSigmoid Real.sqrt (1 / 1000000) 1 0 pos neg x fun _ => 0
    lmfObjective 0 pos neg r.1 < lmfObjective 0 pos neg x := by
  intro pos neg x r
  have hx : dot x (fun _ => 1) = Real.log (3 / 2) := by simp [dot, x]
  have hsig : lmfSigmoid (Real.log (3 / 2)) = 3 / 5 := by
    rw [(C37_sigmoid _).1]
    unfold logistic
    rw [Real.exp_neg, Real.exp_log (by norm_num)]
    norm_num
  have hd : lmfDeriv lmfSigmoid x pos neg 0 = -1 / 5 := by
    unfold lmfDeriv
    rw [lmf_foldl_neg, lmf_foldl_posSig, lmf_foldl_pos]
    simp only [pos, neg, List.map_cons, List.map_nil, List.sum_cons, List.sum_nil, hx, hsig]
    norm_num
  have hr : r.1 0 = Real.log (3 / 2) - 1 / 5 / Real.sqrt (1 / 1000000 + 1 / 25) := by
    have h1 := lmfRow_step (1 / 1000000) 1 0 pos (by simp [pos]) neg x (fun _ => 0) 0
    refine h1.trans ?_
    simp only [hd, zero_mul, sub_zero, zero_add]
    rw [show (-1 / 5 : ℝ) * (-1 / 5) = 1 / 25 by norm_num]
    show Real.log (3 / 2) + _ = _
    ring
  set δ := 1 / 5 / Real.sqrt (1 / 1000000 + 1 / 25) with hδ
  have hδ1 : 99 / 100 ≤ δ := by
    have h1 : Real.sqrt (1 / 1000000 + 1 / 25) ≤ 202 / 1000 := by
      rw [Real.sqrt_le_left (by norm_num)]
      norm_num
    have h2 : 0 < Real.sqrt (1 / 1000000 + 1 / 25) := Real.sqrt_pos.mpr (by norm_num)
    rw [hδ, le_div_iff₀ h2]
    linarith
  have hF : ∀ y : Vec 1 ℝ, lmfObjective 0 pos neg y = y 0 - 2 * Real.log (1 + Real.exp (y 0)) := by
    intro y
    simp [lmfObjective, pos, neg]
    ring
  rw [hF, hF]
  show r.1 0 - 2 * Real.log (1 + Real.exp (r.1 0)) <
    Real.log (3 / 2) - 2 * Real.log (1 + Real.exp (Real.log (3 / 2)))
  rw [hr, Real.exp_log (by norm_num)]
  set E := Real.exp (Real.log (3 / 2) - δ) with hE
  have hE0 : 0 < E := Real.exp_pos _
  have hE1 : E < 2 / 3 := by
    rw [hE, Real.exp_sub, Real.exp_log (by norm_num), div_lt_iff₀ (Real.exp_pos _)]
    have h1 := Real.quadratic_le_exp_of_nonneg (show (0 : ℝ) ≤ 99 / 100 by norm_num)
    have h2 := Real.exp_le_exp.mpr hδ1
    norm_num at h1
    linarith
  have hlog : Real.log (3 / 2) - δ = Real.log E := by rw [hE, Real.log_exp]
  rw [hlog]
  have h1 : ∀ y : ℝ, 0 < y → Real.log y - 2 * Real.log (1 + y) = Real.log (y / (1 + y) ^ 2) := by
    intro y hy
    rw [Real.log_div hy.ne' (by positivity), Real.log_pow]
    push_cast
    ring
  rw [h1 E hE0, h1 (3 / 2) (by norm_num)]
  refine Real.log_lt_log (by positivity) ?_
  rw [div_lt_div_iff₀ (by positivity) (by norm_num)]
  nlinarith

/-- The step bound does not depend on the data: a row with an entry of confidence 1000 moves by less than the
learning rate. -/
example : |(lmfRow lmfSigmoid Real.sqrt (1 / 1000000) 1 (3 / 5) [((fun _ => 1 : Vec 1 ℝ), 1000)] []
    (fun _ => 2) (fun _ => 0)).1 0 - 2| < 1 :=
  C86_lmf_step_size _ _ _ (by norm_num) (by norm_num) _ _ _ _ (by simp) 0

/-- A row whose history is long enough: curvature `1/4 + 3/5`, squared derivatives 1 or more. -/
example : lmfObjective (3 / 5) [((fun _ => 1 : Vec 1 ℝ), 1)] [] (fun _ => 2) ≤
    lmfObjective (3 / 5) [((fun _ => 1 : Vec 1 ℝ), 1)] []
      (lmfRow lmfSigmoid Real.sqrt (1 / 1000000) 1 (3 / 5) [((fun _ => 1 : Vec 1 ℝ), 1)] []
        (fun _ => 2) (fun _ => 1)).1 := by
  refine (C86_lmf (1 / 1000000) 1 (3 / 5) (by norm_num) one_pos [((fun _ => 1 : Vec 1 ℝ), 1)] (by simp) []
    (fun _ => 2) (fun _ => 1) (fun _ => zero_le_one)).1 fun a => ?_
  have h1 : lmfCurvature (3 / 5) [((fun _ => 1 : Vec 1 ℝ), (1 : ℝ))] [] = 17 / 20 := by
    norm_num [lmfCurvature]
  rw [h1]
  have h2 : (1 : ℝ) ≤ 1 / 1000000 + (lmfRow lmfSigmoid Real.sqrt (1 / 1000000) 1 (3 / 5)
      [((fun _ => 1 : Vec 1 ℝ), 1)] [] (fun _ => 2) (fun _ => 1)).2 a := by
    simp only [lmfRow, List.isEmpty_cons, Bool.false_eq_true, if_false]
    have := mul_self_nonneg (lmfDeriv lmfSigmoid (fun _ => 2) [((fun _ => 1 : Vec 1 ℝ), (1 : ℝ))] [] a -
      3 / 5 * 2)
    linarith
  have h3 := Real.sqrt_le_sqrt h2
  rw [Real.sqrt_one] at h3
  linarith

end Implicit
