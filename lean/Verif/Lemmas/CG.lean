import Verif.Lemmas.ALS
import Mathlib.LinearAlgebra.Dimension.Constructions
import Mathlib.LinearAlgebra.Dimension.Finite
import Mathlib.Logic.Function.Iterate
import Mathlib.Tactic.FieldSimp

set_option linter.unusedSectionVars false

namespace Implicit

variable {R : Type} [LinearOrder R] [Field R] {f : Nat}

/-! ## The matrix-free products are the products with the matrix -/

theorem foldl_axpy {α : Type} (l : List α) (t : α → R) (y : α → Vec f R) (r : Vec f R) :
    l.foldl (fun v e => axpy (t e) (y e) v) r =
      fun a => r a + (l.map fun e => t e * y e a).sum := by
  induction l generalizing r with
  | nil => simp
  | cons e l ih =>
    rw [List.foldl_cons, ih]
    funext a
    simp only [axpy, List.map_cons, List.sum_cons]
    ring

variable [IsStrictOrderedRing R]

theorem conf_alt (c : R) : (if c < 0 then -c else c) = conf c := by
  unfold conf
  rcases lt_trichotomy c 0 with h | h | h
  · rw [if_pos h, if_neg (not_lt.mpr h.le)]
  · subst h; simp
  · rw [if_neg (not_lt.mpr h.le), if_pos h]

theorem cgApply_eq (G : Mat f R) (reg : R) (es : List (Vec f R × R)) (p : Vec f R) :
    cgApply (regularised G reg) es p = mulVec (linearEquation G reg es).1 p := by
  funext a
  unfold cgApply
  rw [foldl_axpy, mulVec_linearEquation, mulVec_regularised]
  simp only [conf_alt]
  rfl

theorem cgResidual_eq (G : Mat f R) (reg : R) (es : List (Vec f R × R)) (x : Vec f R) :
    cgResidual (regularised G reg) es x =
      (linearEquation G reg es).2 - mulVec (linearEquation G reg es).1 x := by
  have h : cgResidual (regularised G reg) es x =
      es.foldl (fun v e => axpy (gain e.2 - (conf e.2 - 1) * dot e.1 x) e.1 v)
        (fun a => -1 * mulVec (regularised G reg) x a) := by
    unfold cgResidual
    congr 1
    funext r e
    unfold gain conf
    split_ifs <;> rfl
  rw [h, foldl_axpy]
  funext a
  simp only [Pi.sub_apply]
  rw [mulVec_linearEquation, mulVec_regularised, linearEquation_snd]
  have : (es.map fun e => (gain e.2 - (conf e.2 - 1) * dot e.1 x) * e.1 a).sum =
      (es.map fun e => gain e.2 * e.1 a).sum -
        (es.map fun e => (conf e.2 - 1) * dot e.1 x * e.1 a).sum := by
    clear h
    induction es with
    | nil => simp
    | cons e es ih => simp only [List.map_cons, List.sum_cons, ih]; ring
  rw [this]
  unfold axpy
  ring

/-! ## The CG iteration on a positive definite matrix -/

/-- The state before the loop. -/
def cgInit (A : Mat f R) (b x : Vec f R) : CG f R :=
  ⟨x, b - mulVec A x, b - mulVec A x, dot (b - mulVec A x) (b - mulVec A x)⟩

/-- The state after `k` rounds without stopping. -/
def cgState (A : Mat f R) (b x : Vec f R) (k : Nat) : CG f R :=
  (cgStep (mulVec A))^[k] (cgInit A b x)

theorem cgState_zero (A : Mat f R) (b x : Vec f R) : cgState A b x 0 = cgInit A b x := rfl

theorem cgState_succ (A : Mat f R) (b x : Vec f R) (k : Nat) :
    cgState A b x (k + 1) = cgStep (mulVec A) (cgState A b x k) :=
  Function.iterate_succ_apply' _ _ _

section
variable {A : Mat f R} {b x : Vec f R}

/-- step length -/
def cgAlpha (A : Mat f R) (s : CG f R) : R := s.rsold / dot s.p (mulVec A s.p)

theorem step_x (s : CG f R) : (cgStep (mulVec A) s).x = axpy (cgAlpha A s) s.p s.x := rfl
theorem step_r (s : CG f R) :
    (cgStep (mulVec A) s).r = axpy (cgAlpha A s * -1) (mulVec A s.p) s.r := rfl
theorem step_rs (s : CG f R) :
    (cgStep (mulVec A) s).rsold = dot (cgStep (mulVec A) s).r (cgStep (mulVec A) s).r := rfl
theorem step_p (s : CG f R) :
    (cgStep (mulVec A) s).p = axpy 1 (cgStep (mulVec A) s).r
      (fun a => (cgStep (mulVec A) s).rsold / s.rsold * s.p a) := rfl

theorem state_rs (k : Nat) :
    (cgState A b x k).rsold = dot (cgState A b x k).r (cgState A b x k).r := by
  cases k with
  | zero => rfl
  | succ k => rw [cgState_succ, step_rs]

/-- The tracked residual is the true residual. -/
theorem state_residual (k : Nat) : (cgState A b x k).r = b - mulVec A (cgState A b x k).x := by
  induction k with
  | zero => rfl
  | succ k ih =>
    rw [cgState_succ, step_r, step_x, mulVec_axpy, ih]
    funext a
    simp only [axpy, Pi.sub_apply]
    ring

theorem pAp_pos (hA : PosDef A) {p : Vec f R} (hp : p ≠ 0) : 0 < dot p (mulVec A p) := hA.pos p hp

/-- `r · p = r · r` in every state, and a zero residual comes with a zero direction. -/
theorem state_rp (hA : PosDef A) (k : Nat) :
    dot (cgState A b x k).r (cgState A b x k).p =
        dot (cgState A b x k).r (cgState A b x k).r ∧
      ((cgState A b x k).r = 0 → (cgState A b x k).p = 0) := by
  induction k with
  | zero => exact ⟨rfl, id⟩
  | succ k ih =>
    rw [cgState_succ]
    set s := cgState A b x k with hs
    have hrs : s.rsold = dot s.r s.r := state_rs k
    -- the new residual is orthogonal to the old direction
    have horth : dot (cgStep (mulVec A) s).r s.p = 0 := by
      rw [step_r, dot_axpy_left, ih.1, dot_comm (mulVec A s.p)]
      unfold cgAlpha
      by_cases hp : s.p = 0
      · have h0 : dot s.r s.r = 0 := by rw [← ih.1, hp, dot_zero_right']
        rw [hrs, h0]; simp
      · have := pAp_pos hA hp
        rw [hrs]; field_simp; ring
    constructor
    · rw [step_p, dot_axpy_right, dot_smul_right, horth]; ring
    · intro h
      rw [step_p, step_rs, h]
      funext a
      simp [axpy, dot]

theorem state_p_ne (hA : PosDef A) {k : Nat} (h : (cgState A b x k).r ≠ 0) :
    (cgState A b x k).p ≠ 0 := by
  intro h0
  have := (state_rp (b := b) (x := x) hA k).1
  rw [h0, dot_zero_right'] at this
  exact h (dot_self_zero this.symm)

/-- The quadratic function minimised by CG. -/
def quad (A : Mat f R) (b x : Vec f R) : R := dot x (mulVec A x) - 2 * dot x b

/-- Change of the quadratic function along a direction. -/
theorem quad_axpy (hA : PosDef A) (t : R) (p y : Vec f R) :
    quad A b (axpy t p y) = quad A b y - 2 * t * dot (b - mulVec A y) p +
      t ^ 2 * dot p (mulVec A p) := by
  unfold quad
  rw [mulVec_axpy, dot_axpy_right, dot_axpy_left, dot_axpy_left, dot_axpy_left, dot_sub_left]
  have h1 := dot_mulVec_symm hA.symm y p
  have h2 := dot_comm p (mulVec A y)
  have h3 := dot_comm p b
  rw [h1, h3]
  have h4 : dot p (mulVec A y) = dot (mulVec A y) p := h2
  rw [h4]
  ring

/-- Each round lowers the quadratic function by `(r·r)² / (p·Ap)`. -/
theorem state_quad (hA : PosDef A) (k : Nat) :
    quad A b (cgState A b x (k + 1)).x = quad A b (cgState A b x k).x -
      dot (cgState A b x k).r (cgState A b x k).r ^ 2 /
        dot (cgState A b x k).p (mulVec A (cgState A b x k).p) := by
  rw [cgState_succ, step_x, quad_axpy hA, ← state_residual, (state_rp hA k).1]
  unfold cgAlpha
  rw [state_rs]
  by_cases hp : (cgState A b x k).p = 0
  · rw [hp, mulVec_zero, dot_zero_right']; simp
  · have := pAp_pos hA hp
    field_simp
    ring

theorem state_quad_le (hA : PosDef A) (k : Nat) :
    quad A b (cgState A b x (k + 1)).x ≤ quad A b (cgState A b x k).x := by
  rw [state_quad hA]
  have : 0 ≤ dot (cgState A b x k).r (cgState A b x k).r ^ 2 /
        dot (cgState A b x k).p (mulVec A (cgState A b x k).p) := by
    by_cases hp : (cgState A b x k).p = 0
    · rw [hp, mulVec_zero, dot_zero_right']; simp
    · exact div_nonneg (sq_nonneg _) (pAp_pos hA hp).le
  linarith

theorem state_quad_lt (hA : PosDef A) {k : Nat} (hp : (cgState A b x k).p ≠ 0) :
    quad A b (cgState A b x (k + 1)).x < quad A b (cgState A b x k).x := by
  rw [state_quad hA]
  have hr : (cgState A b x k).r ≠ 0 := fun h => hp ((state_rp hA k).2 h)
  have := div_pos (pow_pos (dot_self_pos hr) 2) (pAp_pos hA hp)
  linarith

theorem state_quad_le_init (hA : PosDef A) (k : Nat) :
    quad A b (cgState A b x k).x ≤ quad A b x := by
  induction k with
  | zero => exact le_refl _
  | succ k ih => exact (state_quad_le hA k).trans ih

/-- Residuals are orthogonal and directions conjugate as long as no residual vanishes. -/
theorem state_conj (hA : PosDef A) (k : Nat) (hne : ∀ j, j < k → (cgState A b x j).r ≠ 0) :
    ∀ j, j < k → dot (cgState A b x k).r (cgState A b x j).r = 0 ∧
      dot (cgState A b x k).p (mulVec A (cgState A b x j).p) = 0 := by
  induction k using Nat.strong_induction_on with
  | _ k ih =>
    cases k with
    | zero => intro j hj; omega
    | succ k =>
      have ihk := ih k (by omega) (fun j hj => hne j (by omega))
      have hk := hne k (by omega)
      have hpk := state_p_ne hA hk
      have hpAp := pAp_pos hA hpk
      have hrs := dot_self_pos hk
      have halpha : cgAlpha A (cgState A b x k) ≠ 0 := by
        unfold cgAlpha
        rw [state_rs]
        exact div_ne_zero hrs.ne' hpAp.ne'
      -- residual part
      have hr : ∀ j, j < k + 1 → dot (cgState A b x (k + 1)).r (cgState A b x j).r = 0 := by
        intro j hj
        have e1 : dot (cgState A b x (k + 1)).r (cgState A b x j).r =
            dot (cgState A b x k).r (cgState A b x j).r + cgAlpha A (cgState A b x k) * -1 *
              dot (mulVec A (cgState A b x k).p) (cgState A b x j).r := by
          rw [cgState_succ, step_r, dot_axpy_left]
        -- A p_k against r_j
        have e2 : dot (mulVec A (cgState A b x k).p) (cgState A b x j).r =
            dot (mulVec A (cgState A b x k).p) (cgState A b x j).p := by
          cases j with
          | zero => rfl
          | succ j =>
            have hp : dot (mulVec A (cgState A b x k).p) (cgState A b x (j + 1)).p =
                dot (mulVec A (cgState A b x k).p) (cgState A b x (j + 1)).r := by
              conv_lhs => rw [cgState_succ, step_p, ← cgState_succ]
              rw [dot_axpy_right, dot_smul_right, dot_comm (mulVec A (cgState A b x k).p)
                (cgState A b x j).p, dot_mulVec_symm hA.symm, (ihk j (by omega)).2]
              ring
            exact hp.symm
        rw [e1, e2]
        rcases Nat.lt_succ_iff_lt_or_eq.mp hj with hjk | rfl
        · rw [(ihk j hjk).1, dot_comm (mulVec A (cgState A b x k).p), dot_mulVec_symm hA.symm,
            (ihk j hjk).2]
          ring
        · rw [dot_comm (mulVec A (cgState A b x j).p)]
          unfold cgAlpha
          rw [state_rs]
          field_simp
          ring
      intro j hj
      refine ⟨hr j hj, ?_⟩
      have e1 : dot (cgState A b x (k + 1)).p (mulVec A (cgState A b x j).p) =
          dot (cgState A b x (k + 1)).r (mulVec A (cgState A b x j).p) +
            (cgState A b x (k + 1)).rsold / (cgState A b x k).rsold *
              dot (cgState A b x k).p (mulVec A (cgState A b x j).p) := by
        conv_lhs => rw [cgState_succ, step_p, ← cgState_succ]
        rw [dot_axpy_left, dot_smul_left]
        ring
      -- α_j A p_j = r_j - r_{j+1}
      have e2 : cgAlpha A (cgState A b x j) *
          dot (cgState A b x (k + 1)).r (mulVec A (cgState A b x j).p) =
          dot (cgState A b x (k + 1)).r (cgState A b x j).r -
            dot (cgState A b x (k + 1)).r (cgState A b x (j + 1)).r := by
        have : dot (cgState A b x (k + 1)).r (cgState A b x (j + 1)).r =
            dot (cgState A b x (k + 1)).r (cgState A b x j).r +
              cgAlpha A (cgState A b x j) * -1 *
                dot (cgState A b x (k + 1)).r (mulVec A (cgState A b x j).p) := by
          conv_lhs => rw [cgState_succ A b x j, step_r]
          rw [dot_axpy_right]
        rw [this]; ring
      rcases Nat.lt_succ_iff_lt_or_eq.mp hj with hjk | rfl
      · have hpj := state_p_ne hA (hne j (by omega))
        have hαj : cgAlpha A (cgState A b x j) ≠ 0 := by
          unfold cgAlpha
          rw [state_rs]
          exact div_ne_zero (dot_self_pos (hne j (by omega))).ne' (pAp_pos hA hpj).ne'
        rw [hr j hj, hr (j + 1) (by omega), sub_zero] at e2
        have e3 := (mul_eq_zero.mp e2).resolve_left hαj
        rw [e1, e3, (ihk j hjk).2]
        ring
      · rw [hr j hj] at e2
        rw [e1]
        rw [state_rs, state_rs]
        have e3 : dot (cgState A b x (j + 1)).r (mulVec A (cgState A b x j).p) =
            -(dot (cgState A b x (j + 1)).r (cgState A b x (j + 1)).r) /
              cgAlpha A (cgState A b x j) := by
          rw [eq_div_iff halpha, mul_comm, e2]; ring
        rw [e3]
        unfold cgAlpha
        rw [state_rs]
        field_simp
        ring

/-- In dimension `f` a residual vanishes after at most `f` rounds. -/
theorem state_terminates (hA : PosDef A) : ∃ k, k ≤ f ∧ (cgState A b x k).r = 0 := by
  by_contra hcon
  simp only [not_exists, not_and] at hcon
  have horth : ∀ i j : Fin (f + 1), i ≠ j →
      dot (cgState A b x i).r (cgState A b x j).r = 0 := by
    have key : ∀ i j : Fin (f + 1), j.1 < i.1 →
        dot (cgState A b x i).r (cgState A b x j).r = 0 := fun i j h =>
      (state_conj hA i.1 (fun l hl => hcon l (by omega)) j.1 h).1
    intro i j hij
    rcases Nat.lt_or_gt_of_ne (fun h => hij (Fin.ext h)) with h | h
    · rw [dot_comm]; exact key j i h
    · exact key i j h
  have hli : LinearIndependent R (fun i : Fin (f + 1) => (cgState A b x i).r) := by
    rw [Fintype.linearIndependent_iff]
    intro g hg i
    have h1 : dot (cgState A b x i).r (∑ j : Fin (f + 1), g j • (cgState A b x j).r) =
        g i * dot (cgState A b x i).r (cgState A b x i).r := by
      have h2 : dot (cgState A b x i).r (∑ j : Fin (f + 1), g j • (cgState A b x j).r) =
          ∑ j : Fin (f + 1), g j * dot (cgState A b x i).r (cgState A b x j).r := by
        simp only [dot, Finset.sum_apply, Pi.smul_apply, smul_eq_mul, Finset.mul_sum]
        rw [Finset.sum_comm]
        exact Finset.sum_congr rfl (fun j _ => Finset.sum_congr rfl (fun a _ => by ring))
      rw [h2]
      refine Finset.sum_eq_single i (fun j _ hj => ?_) (by simp)
      rw [horth i j hj.symm, mul_zero]
    rw [hg, dot_zero_right'] at h1
    exact (mul_eq_zero.mp h1.symm).resolve_right (dot_self_pos (hcon i (by omega))).ne'
  have := hli.fintype_card_le_finrank
  simp at this

/-- Once the residual vanishes nothing changes any more. -/
theorem state_stays (k n : Nat) (h : (cgState A b x k).r = 0) :
    (cgState A b x (k + n)).r = 0 ∧ (cgState A b x (k + n)).x = (cgState A b x k).x := by
  induction n with
  | zero => exact ⟨h, rfl⟩
  | succ n ih =>
    have h0 : cgAlpha A (cgState A b x (k + n)) = 0 := by
      unfold cgAlpha
      rw [state_rs, ih.1, dot_zero_right']; simp
    rw [← Nat.add_assoc, cgState_succ, step_r, step_x, h0, ih.1, ih.2]
    constructor <;> funext a <;> simp [axpy]

end

/-! ## The loop -/

theorem iterate_succ_comm {α : Type} (g : α → α) (n : Nat) (s : α) : g^[n] (g s) = g^[n + 1] s :=
  rfl

/-- The loop returns the iterate after some number `k ≤ n` of rounds: either all `n`, or the first
one whose `rsnew` is below the tolerance. -/
theorem cgLoop_eq (apply : Vec f R → Vec f R) (tol : R) (n : Nat) (s : CG f R) :
    ∃ k, k ≤ n ∧ cgLoop apply tol n s = ((cgStep apply)^[k] s).x ∧
      (k = n ∨ (1 ≤ k ∧ ((cgStep apply)^[k] s).rsold < tol)) ∧
      (∀ j, 1 ≤ j → j < k → tol ≤ ((cgStep apply)^[j] s).rsold) ∧ (1 ≤ n → 1 ≤ k) := by
  induction n generalizing s with
  | zero => exact ⟨0, le_refl _, rfl, Or.inl rfl, fun j h1 h2 => by omega, fun h => by omega⟩
  | succ n ih =>
    unfold cgLoop
    by_cases h : (cgStep apply s).rsold < tol
    · refine ⟨1, by omega, ?_, Or.inr ⟨le_refl _, h⟩, fun j h1 h2 => by omega, fun _ => le_refl _⟩
      simp only [h, if_true]
      rfl
    · obtain ⟨k, h1, h2, h3, h4, _⟩ := ih (cgStep apply s)
      refine ⟨k + 1, by omega, ?_, ?_, ?_, fun _ => by omega⟩
      · simp only [h, if_false]; rw [h2]; rfl
      · rcases h3 with h3 | ⟨_, h3⟩
        · exact Or.inl (by omega)
        · exact Or.inr ⟨by omega, h3⟩
      · intro j hj hjk
        cases j with
        | zero => omega
        | succ j =>
          cases j with
          | zero => exact not_lt.mp h
          | succ j => exact h4 (j + 1) (by omega) (by omega)

end Implicit
