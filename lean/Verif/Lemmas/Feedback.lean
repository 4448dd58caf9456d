import Verif.Spec.Feedback
import Verif.Props.C17
import Mathlib.Tactic.Linarith
import Mathlib.Tactic.LinearCombination

/-!
# Lemmas for C85: two solutions of neighbouring least squares problems
-/

namespace Implicit

variable {R : Type} [LinearOrder R] [Field R] {f : Nat}

open Spec (ValidRow score SameExcept Towards StrictlyTowards)

theorem score_fin (Y : List (Vec f R)) (x : Vec f R) (i : Fin Y.length) :
    score Y x i = ∑ j, x j * Y[i] j := by
  unfold score
  rw [List.getElem?_eq_getElem i.2]
  rfl

theorem score_sub (Y : List (Vec f R)) (x x' : Vec f R) (i : Nat) :
    score Y (x' - x) i = score Y x' i - score Y x i := by
  unfold score
  rw [← Finset.sum_sub_distrib]
  exact Finset.sum_congr rfl fun j _ => by rw [Pi.sub_apply]; ring

theorem normalEquations_score (Y : List (Vec f R)) (row : List (Nat × R)) (reg : R) (x : Vec f R) :
    Spec.NormalEquations Y row reg x ↔ ∀ a,
      (∑ j : Fin Y.length, Spec.confidence row j * score Y x j * Y[j] a) + reg * x a =
        ∑ j : Fin Y.length, Spec.confidence row j * Spec.preference row j * Y[j] a := by
  unfold Spec.NormalEquations
  simp only [score_fin]

theorem confidence_congr {row row' : List (Nat × R)} {j : Nat} (h : row'.lookup j = row.lookup j) :
    Spec.confidence row' j = Spec.confidence row j := by
  unfold Spec.confidence; rw [h]

theorem preference_congr {row row' : List (Nat × R)} {j : Nat} (h : row'.lookup j = row.lookup j) :
    Spec.preference row' j = Spec.preference row j := by
  unfold Spec.preference; rw [h]

/-- What pulls at the new solution when the cell `i` changes: the difference of the two weighted
errors at the new score. -/
def pull (row row' : List (Nat × R)) (i : Nat) (s' : R) : R :=
  Spec.confidence row' i * (Spec.preference row' i - s') -
    Spec.confidence row i * (Spec.preference row i - s')

/-- The difference of two solutions of problems that differ in one cell solves the old system with
the factor of that cell, times the pull, on the right. -/
theorem step_equation {Y : List (Vec f R)} {row row' : List (Nat × R)} {reg : R} {x x' : Vec f R}
    (hx : Spec.NormalEquations Y row reg x) (hx' : Spec.NormalEquations Y row' reg x') {i : Nat}
    (hi : i < Y.length) (hs : SameExcept i row row') (a : Fin f) :
    (∑ j : Fin Y.length, Spec.confidence row j * score Y (x' - x) j * Y[j] a) +
        reg * (x' - x) a = pull row row' i (score Y x' i) * Y[i] a := by
  have h1 := (normalEquations_score Y row reg x).mp hx a
  have h2 := (normalEquations_score Y row' reg x').mp hx' a
  have h3 : (∑ j : Fin Y.length, Spec.confidence row' j * Spec.preference row' j * Y[j] a) -
      (∑ j : Fin Y.length, Spec.confidence row' j * score Y x' j * Y[j] a) -
      ((∑ j : Fin Y.length, Spec.confidence row j * Spec.preference row j * Y[j] a) -
      (∑ j : Fin Y.length, Spec.confidence row j * score Y x' j * Y[j] a)) =
      pull row row' i (score Y x' i) * Y[i] a := by
    rw [← Finset.sum_sub_distrib, ← Finset.sum_sub_distrib, ← Finset.sum_sub_distrib,
      Finset.sum_eq_single (⟨i, hi⟩ : Fin Y.length)]
    · simp only [pull, Fin.getElem_fin]; ring
    · intro j _ hj
      have := hs j.1 fun e => hj (Fin.ext e)
      rw [confidence_congr this, preference_congr this]
      ring
    · simp
  have h4 : (∑ j : Fin Y.length, Spec.confidence row j * score Y (x' - x) j * Y[j] a) =
      (∑ j : Fin Y.length, Spec.confidence row j * score Y x' j * Y[j] a) -
      ∑ j : Fin Y.length, Spec.confidence row j * score Y x j * Y[j] a := by
    rw [← Finset.sum_sub_distrib]
    exact Finset.sum_congr rfl fun j _ => by rw [score_sub]; ring
  rw [h4, Pi.sub_apply]
  linear_combination h3 - h1 + h2

variable [IsStrictOrderedRing R]

theorem cellWeight_nonneg (row : List (Nat × R)) (j : Nat) : 0 ≤ Spec.confidence row j := by
  unfold Spec.confidence
  split
  · exact zero_le_one
  · exact abs_nonneg _

theorem preference_cases (row : List (Nat × R)) (j : Nat) :
    Spec.preference row j = 0 ∨ Spec.preference row j = 1 := by
  unfold Spec.preference
  split
  · exact .inl rfl
  · split_ifs
    · exact .inr rfl
    · exact .inl rfl

/-- The quadratic form of the system. -/
def energy (Y : List (Vec f R)) (row : List (Nat × R)) (reg : R) (d : Vec f R) : R :=
  (∑ j : Fin Y.length, Spec.confidence row j * score Y d j ^ 2) + reg * Spec.sqLength d

theorem energy_of_equation {Y : List (Vec f R)} {row : List (Nat × R)} {reg : R} {d g : Vec f R}
    (h : ∀ a, (∑ j : Fin Y.length, Spec.confidence row j * score Y d j * Y[j] a) + reg * d a = g a) :
    energy Y row reg d = ∑ a, d a * g a := by
  unfold energy Spec.sqLength
  simp only [← h, mul_add, Finset.sum_add_distrib, Finset.mul_sum]
  congr 1
  · rw [Finset.sum_comm]
    refine Finset.sum_congr rfl fun j _ => ?_
    have h1 : score Y d j ^ 2 = score Y d j * ∑ a, d a * Y[j] a := by rw [← score_fin]; ring
    rw [h1, Finset.mul_sum, Finset.mul_sum]
    exact Finset.sum_congr rfl fun a _ => by ring
  · exact Finset.sum_congr rfl fun a _ => by ring

theorem sqLength_nonneg (d : Vec f R) : 0 ≤ Spec.sqLength d :=
  Finset.sum_nonneg fun _ _ => sq_nonneg _

theorem sqLength_eq_zero {d : Vec f R} : Spec.sqLength d = 0 ↔ d = 0 := by
  unfold Spec.sqLength
  rw [Finset.sum_eq_zero_iff_of_nonneg fun _ _ => sq_nonneg _, funext_iff]
  simp

theorem energy_ge (Y : List (Vec f R)) (row : List (Nat × R)) (reg : R) (d : Vec f R) :
    reg * Spec.sqLength d ≤ energy Y row reg d := by
  have : 0 ≤ ∑ j : Fin Y.length, Spec.confidence row j * score Y d j ^ 2 :=
    Finset.sum_nonneg fun j _ => mul_nonneg (cellWeight_nonneg row j) (sq_nonneg _)
  unfold energy
  linarith

theorem energy_nonneg (Y : List (Vec f R)) (row : List (Nat × R)) {reg : R} (hreg : 0 < reg)
    (d : Vec f R) : 0 ≤ energy Y row reg d :=
  (mul_nonneg hreg.le (sqLength_nonneg d)).trans (energy_ge Y row reg d)

/-- The energy of the change is the pull times the change of the score of the cell. -/
theorem step_energy {Y : List (Vec f R)} {row row' : List (Nat × R)} {reg : R} {x x' : Vec f R}
    (hx : Spec.NormalEquations Y row reg x) (hx' : Spec.NormalEquations Y row' reg x') {i : Nat}
    (hi : i < Y.length) (hs : SameExcept i row row') :
    energy Y row reg (x' - x) =
      pull row row' i (score Y x' i) * (score Y x' i - score Y x i) := by
  rw [energy_of_equation (g := fun a => pull row row' i (score Y x' i) * Y[i] a)
    (step_equation hx hx' hi hs), ← score_sub, score_fin Y (x' - x) ⟨i, hi⟩, Finset.mul_sum]
  exact Finset.sum_congr rfl fun a _ => by simp only [Fin.getElem_fin]; ring

theorem step_nonneg {Y : List (Vec f R)} {row row' : List (Nat × R)} {reg : R} (hreg : 0 < reg)
    {x x' : Vec f R}
    (hx : Spec.NormalEquations Y row reg x) (hx' : Spec.NormalEquations Y row' reg x') {i : Nat}
    (hi : i < Y.length) (hs : SameExcept i row row') :
    0 ≤ pull row row' i (score Y x' i) * (score Y x' i - score Y x i) := by
  rw [← step_energy hx hx' hi hs]
  exact energy_nonneg Y row hreg _

/-- If the score of the cell does not change and its factor is not zero, nothing pulls. -/
theorem step_strict {Y : List (Vec f R)} {row row' : List (Nat × R)} {reg : R} (hreg : 0 < reg)
    {x x' : Vec f R}
    (hx : Spec.NormalEquations Y row reg x) (hx' : Spec.NormalEquations Y row' reg x') {i : Nat}
    (hi : i < Y.length) (hs : SameExcept i row row')
    (h : pull row row' i (score Y x' i) = 0 ∨ score Y x' i = score Y x i) :
    x' = x ∧ (Y[i] ≠ 0 → pull row row' i (score Y x' i) = 0) := by
  have h0 : energy Y row reg (x' - x) = 0 := by
    rw [step_energy hx hx' hi hs]
    rcases h with h | h <;> rw [h] <;> ring
  have h1 := energy_ge Y row reg (x' - x)
  have h2 : Spec.sqLength (x' - x) = 0 := by
    have h3 := sqLength_nonneg (x' - x)
    rw [h0] at h1
    by_contra hne
    have : 0 < reg * Spec.sqLength (x' - x) := mul_pos hreg (lt_of_le_of_ne h3 (Ne.symm hne))
    linarith
  have h3 : x' - x = 0 := sqLength_eq_zero.mp h2
  refine ⟨sub_eq_zero.mp h3, fun hne => ?_⟩
  obtain ⟨a, ha⟩ := Function.ne_iff.mp hne
  have h4 := step_equation hx hx' hi hs a
  rw [h3] at h4
  have h5 : ∀ j, score Y (0 : Vec f R) j = 0 := fun j => by simp [score]
  simp only [h5, Pi.zero_apply, mul_zero, zero_mul, Finset.sum_const_zero, add_zero] at h4
  exact (mul_eq_zero.mp h4.symm).resolve_right ha

/-! ## The scaled row of the code -/

theorem lookup_scale (a : R) (row : List (Nat × R)) (j : Nat) :
    (row.map fun e => (e.1, a * e.2)).lookup j = (row.lookup j).map fun c => a * c := by
  induction row with
  | nil => rfl
  | cons e row ih =>
    obtain ⟨k, c⟩ := e
    simp only [List.map_cons, List.lookup_cons]
    cases j == k <;> simp [ih]

theorem sameExcept_scale {i : Nat} {row row' : List (Nat × R)} (h : SameExcept i row row') (a : R) :
    SameExcept i (row.map fun e => (e.1, a * e.2)) (row'.map fun e => (e.1, a * e.2)) := by
  intro j hj
  rw [lookup_scale, lookup_scale, h j hj]

/-- A recalculation that returns `x` has solved the normal equations. -/
theorem recalculated_equations {env : Env f R} (hreg : 0 < env.p.regularization) {st : MFState f R}
    (hst : Coherent env st) {id : Nat} {row : List (Nat × R)} (hv : ValidRow st.item.length row)
    {x : Vec f R} (h : (recalculateUser env st (.one id) [row]).1 = .ok [x]) :
    Spec.NormalEquations st.item (row.map fun e => (e.1, env.p.alpha * e.2))
        env.p.regularization x ∧
      Spec.IsOptimum st.item (row.map fun e => (e.1, env.p.alpha * e.2)) env.p.regularization x := by
  obtain ⟨xs, hxs, _, hk⟩ := C17_recalculate_user env hreg st hst (.one id) [row] rfl (by simpa using hv)
  rw [h] at hxs
  cases hxs
  exact hk 0 row x rfl rfl

end Implicit
