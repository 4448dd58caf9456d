import Verif.Lemmas.RoundALS
import Verif.Lemmas.RoundMetrics
import Verif.Model.Overflow
import Verif.Spec.Overflow
/-!
# C94 — training of LMF stays in range
-/

set_option linter.unusedSectionVars false

namespace Implicit

open Spec (Within sumBound)

variable {f : Nat}

theorem within_mono {B B' : ℝ} {v : Option ℝ} (h : Within B v) (hB : B ≤ B') : Within B' v := by
  obtain ⟨x, h1, h2⟩ := h
  exact ⟨x, h1, h2.trans hB⟩

/-- A finite number between `0` and `S`. -/
def SumWithin (S : ℝ) (v : Option ℝ) : Prop := ∃ y, v = some y ∧ 0 ≤ y ∧ y ≤ S

/-! ## Single operations -/

section
variable {r : Rounding ℝ} {u η Ω : ℝ} (hu : r.u ≤ u) (hη : r.η ≤ η)
include hu hη

theorem rnd_size {x X : ℝ} (hx : |x| ≤ X) : |r.rnd x| ≤ X * (1 + u) + η := by
  have h1 := r.err x
  have h2 : |r.rnd x| ≤ |r.rnd x - x| + |x| := by simpa using abs_add_le (r.rnd x - x) x
  have h3 : r.u * |x| ≤ u * X := mul_le_mul hu hx (abs_nonneg _) (r.u_nonneg.trans hu)
  linarith

theorem rnd_below {x : ℝ} (hx : 0 ≤ x) : x * (1 - u) - η ≤ r.rnd x := by
  have h1 := (abs_le.mp (r.err x)).1
  rw [abs_of_nonneg hx] at h1
  have h3 : r.u * x ≤ u * x := mul_le_mul_of_nonneg_right hu hx
  linarith

theorem limit_eq {x X : ℝ} (hx : |x| ≤ X) (hΩ : X * (1 + u) + η ≤ Ω) : limit r Ω x = some (r.rnd x) :=
  if_pos ((rnd_size hu hη hx).trans hΩ)

theorem limit_within {x X : ℝ} (hx : |x| ≤ X) (hΩ : X * (1 + u) + η ≤ Ω) : Within (X * (1 + u) + η) (limit r Ω x) :=
  ⟨_, limit_eq hu hη hx hΩ, rnd_size hu hη hx⟩

theorem add_within {X Y : ℝ} {a b : Option ℝ} (ha : Within X a) (hb : Within Y b) (h : (X + Y) * (1 + u) + η ≤ Ω) :
    Within ((X + Y) * (1 + u) + η) ((limitOps r Ω).add a b) := by
  obtain ⟨x, rfl, hx⟩ := ha
  obtain ⟨y, rfl, hy⟩ := hb
  exact limit_within hu hη ((abs_add_le x y).trans (add_le_add hx hy)) h

theorem sub_within {X Y : ℝ} {a b : Option ℝ} (ha : Within X a) (hb : Within Y b) (h : (X + Y) * (1 + u) + η ≤ Ω) :
    Within ((X + Y) * (1 + u) + η) ((limitOps r Ω).sub a b) := by
  obtain ⟨x, rfl, hx⟩ := ha
  obtain ⟨y, rfl, hy⟩ := hb
  exact limit_within hu hη ((abs_sub x y).trans (add_le_add hx hy)) h

theorem mul_within {X Y : ℝ} {a b : Option ℝ} (ha : Within X a) (hb : Within Y b) (h : X * Y * (1 + u) + η ≤ Ω) :
    Within (X * Y * (1 + u) + η) ((limitOps r Ω).mul a b) := by
  obtain ⟨x, rfl, hx⟩ := ha
  obtain ⟨y, rfl, hy⟩ := hb
  refine limit_within hu hη ?_ h
  rw [abs_mul]
  exact mul_le_mul hx hy (abs_nonneg _) ((abs_nonneg _).trans hx)

/-! ## Sums -/

theorem sumBound_step {P Q : ℝ} (hP : 0 ≤ P) (hQ : Q = P + 2 * η) (k : Nat) :
    (sumBound u Q k + (P * (1 + u) + η)) * (1 + u) + η ≤ sumBound u Q (k + 1) := by
  have hu0 := r.u_nonneg.trans hu
  have hη0 := r.η_nonneg.trans hη
  unfold sumBound
  have h1 : 1 ≤ (1 + u) ^ k := one_le_growth hu0 k
  have hQ0 : 0 ≤ Q := by rw [hQ]; positivity
  have h2 : (1 + u) ^ 2 * Q ≤ (1 + u) ^ (k + 2) * Q := by
    refine mul_le_mul_of_nonneg_right ?_ hQ0
    rw [pow_add]
    nlinarith [sq_nonneg (1 + u)]
  have h3 : (P * (1 + u) + η) * (1 + u) + η ≤ (1 + u) ^ 2 * Q := by
    rw [hQ]
    nlinarith [mul_nonneg hu0 hη0, mul_nonneg (mul_nonneg hu0 hu0) hη0]
  have e : (1 + u) ^ (k + 1 + 1) * ((k + 1 : Nat) : ℝ) * Q = (1 + u) * ((1 + u) ^ (k + 1) * k * Q) + (1 + u) ^ (k + 2) * Q := by
    push_cast
    ring
  rw [e]
  nlinarith

theorem sumBound_mono {Q : ℝ} (hQ : 0 ≤ Q) {j k : Nat} (h : j ≤ k) : sumBound u Q j ≤ sumBound u Q k := by
  have hu0 := r.u_nonneg.trans hu
  unfold sumBound
  have h1 := growth_mono hu0 (show j + 1 ≤ k + 1 by omega)
  have h2 : (j : ℝ) ≤ k := by exact_mod_cast h
  have h3 := one_le_growth hu0 (j + 1)
  have h4 : (0 : ℝ) ≤ j := Nat.cast_nonneg j
  refine mul_le_mul_of_nonneg_right (mul_le_mul h1 h2 h4 (by linarith)) hQ

theorem sumBound_nonneg {Q : ℝ} (hQ : 0 ≤ Q) (k : Nat) : 0 ≤ sumBound u Q k := by
  have := r.u_nonneg.trans hu
  unfold sumBound
  positivity

theorem sum_add {P Q : ℝ} (hP : 0 ≤ P) (hQ : Q = P + 2 * η) {k : Nat} (hΩ : sumBound u Q (k + 1) ≤ Ω) {s p : Option ℝ}
    (hs : Within (sumBound u Q k) s) (hp : Within (P * (1 + u) + η) p) : Within (sumBound u Q (k + 1)) ((limitOps r Ω).add s p) :=
  within_mono (add_within hu hη hs hp ((sumBound_step hu hη hP hQ k).trans hΩ)) (sumBound_step hu hη hP hQ k)

theorem sum_sub {P Q : ℝ} (hP : 0 ≤ P) (hQ : Q = P + 2 * η) {k : Nat} (hΩ : sumBound u Q (k + 1) ≤ Ω) {s p : Option ℝ}
    (hs : Within (sumBound u Q k) s) (hp : Within (P * (1 + u) + η) p) : Within (sumBound u Q (k + 1)) ((limitOps r Ω).sub s p) :=
  within_mono (sub_within hu hη hs hp ((sumBound_step hu hη hP hQ k).trans hΩ)) (sumBound_step hu hη hP hQ k)

theorem term_le {P Q : ℝ} (hP : 0 ≤ P) (hQ : Q = P + 2 * η) {k : Nat} (hΩ : sumBound u Q (k + 1) ≤ Ω) : P * (1 + u) + η ≤ Ω := by
  have h := sumBound_step hu hη hP hQ 0
  have hu0 := r.u_nonneg.trans hu
  have hη0 := r.η_nonneg.trans hη
  have h1 := sumBound_mono hu hη (by rw [hQ]; positivity : 0 ≤ Q) (show 0 + 1 ≤ k + 1 by omega)
  have h2 : sumBound u Q 0 = 0 := by simp [sumBound]
  rw [h2] at h
  have : 0 ≤ P * (1 + u) + η := by positivity
  nlinarith

theorem within_foldl {α : Type} {Q : ℝ} {n : Nat} (g : Option ℝ → α → Option ℝ) : ∀ (l : List α) (_ : ∀ a ∈ l, ∀ k s, k + 1 ≤ n →
    Within (sumBound u Q k) s → Within (sumBound u Q (k + 1)) (g s a)) (k : Nat) (s : Option ℝ), k + l.length ≤ n → Within (sumBound u Q k) s →
    Within (sumBound u Q (k + l.length)) (l.foldl g s)
  | [], _, k, s, _, hs => by simpa using hs
  | a :: l, hg, k, s, hk, hs => by
    simp only [List.length_cons] at hk
    have := within_foldl g l (fun b hb => hg b (List.mem_cons_of_mem _ hb)) (k + 1) (g s a) (by omega)
      (hg a (by simp) k s (by omega) hs)
    rw [show k + 1 + l.length = k + (a :: l).length by simp only [List.length_cons]; omega] at this
    exact this

theorem zero_within {Q : ℝ} : Within (sumBound u Q 0) (some 0) := ⟨0, rfl, by simp [sumBound]⟩

theorem dot_within {F : ℝ} (hF : 0 ≤ F) (hΩ : sumBound u (F * F + 2 * η) f ≤ Ω) {x y : Vec f (Option ℝ)} (hx : ∀ a, Within F (x a))
    (hy : ∀ a, Within F (y a)) : Within (sumBound u (F * F + 2 * η) f) ((limitOps r Ω).dot x y) := by
  have hη0 := r.η_nonneg.trans hη
  have h := within_foldl hu hη (Q := F * F + 2 * η) (n := f) (fun s j => (limitOps r Ω).add s ((limitOps r Ω).mul (x j) (y j))) (List.finRange f)
    (fun j _ k s hk hs => by
      have h1 := (sumBound_mono hu hη (by positivity : 0 ≤ F * F + 2 * η) hk).trans hΩ
      exact sum_add hu hη (mul_nonneg hF hF) rfl h1 hs
        (mul_within hu hη (hx j) (hy j) (term_le hu hη (mul_nonneg hF hF) rfl h1))) 0 (some 0) (by simp) (zero_within hu hη)
  rw [Nat.zero_add, List.length_finRange] at h
  exact h

end

theorem foldl_apply {α W : Type} {f : Nat} (g : W → α → Fin f → W) (a : Fin f) : ∀ (l : List α) (d : Fin f → W),
    (l.foldl (fun d e a => g (d a) e a) d) a = l.foldl (fun s e => g s e a) (d a)
  | [], _ => rfl
  | e :: l, d => by
    rw [List.foldl_cons, foldl_apply g a l, List.foldl_cons]

/-! ## The logistic function -/

theorem sigmoid_within {r s : Rounding ℝ} {Ω : ℝ} (hr : r.Orderly 2) (hs : s.Orderly 2) (hΩ : 1 ≤ Ω) {ex : ℝ → ℝ} (h0 : ∀ x, 0 ≤ ex x)
    (h1 : ∀ x ≤ 0, ex x ≤ 1) {a : Option ℝ} {X : ℝ} (ha : Within X a) : Within 1 (limitSigmoid r s Ω ex a) := by
  obtain ⟨x, rfl, -⟩ := ha
  have hone : s.rnd 1 = 1 := by simpa using hs.nat (n := 1) le_rfl
  have key : ∀ y, 0 ≤ y → y ≤ 1 → Within 1 (limit r Ω (s.rnd y)) := fun y hy hy1 => by
    have e1 := hr.nonneg (hs.nonneg hy)
    have e2 : r.rnd (s.rnd y) ≤ 1 := by
      have : s.rnd y ≤ 1 := by rw [← hone]; exact hs.mono hy1
      simpa using hr.le_nat (n := 1) le_rfl (by simpa using this)
    have e3 : |r.rnd (s.rnd y)| ≤ 1 := by rwa [abs_of_nonneg e1]
    exact ⟨_, if_pos (e3.trans hΩ), e3⟩
  have hden : ∀ y, 1 ≤ s.rnd (1 + ex y) := fun y => by
    rw [← hone]
    exact hs.mono (by linarith [h0 y])
  show Within 1 (if 0 ≤ x then _ else _)
  split_ifs with hx
  · refine key _ (div_nonneg zero_le_one (zero_le_one.trans (hden _))) ?_
    rw [div_le_one (by linarith [hden (-x)])]
    exact hden _
  · refine key _ (div_nonneg (h0 x) (zero_le_one.trans (hden _))) ?_
    rw [div_le_one (by linarith [hden x])]
    exact (h1 x (not_le.mp hx).le).trans (hden x)

/-! ## A row -/

/-- The sizes that are assumed: of the precision (`u`, `η`, largest number `Ω`), of the weights (`D`), and of what is to be shown: factors at most
`F` during `T` epochs that move `n` terms per row at most.  `μ` is below the square root of the constant `eps`. -/
structure LmfSizes (u η Ω eps μ lr D F : ℝ) (n f T : Nat) : Prop where
  u_nonneg : 0 ≤ u
  u_lt : u < 1
  η_nonneg : 0 ≤ η
  F_ge : 1 ≤ F
  F_le : F ≤ Ω
  D_ge : 1 ≤ D
  lr_nonneg : 0 ≤ lr
  μ_pos : 0 < μ
  eps_ge : μ ^ 2 + 3 * η ≤ eps * (1 - u)
  η_le : η ≤ μ * u * (1 - u)
  scores : sumBound u (F * F + 2 * η) f ≤ Ω
  squares : (1 + ((eps + sumBound u (Spec.lmfGradient u η D F n * Spec.lmfGradient u η D F n + 2 * η) (T + 1)) * (1 + u) + η)) * (1 + u) + η ≤ Ω
  rate : lr / (μ * (1 - u) ^ 2) * (1 + u) + η ≤ Ω

theorem le_scaled {x u η : ℝ} (hx : 0 ≤ x) (hu : 0 ≤ u) (hη : 0 ≤ η) : x ≤ x * (1 + u) + η := by
  nlinarith [mul_nonneg hx hu]

theorem le_squares {eps S u η : ℝ} (he : 0 ≤ eps) (hS : 0 ≤ S) (hu : 0 ≤ u) (hη : 0 ≤ η) :
    1 + S ≤ (1 + ((eps + S) * (1 + u) + η)) * (1 + u) + η := by
  have h1 := le_scaled (by linarith : 0 ≤ eps + S) hu hη
  have h2 := le_scaled (by linarith : 0 ≤ 1 + ((eps + S) * (1 + u) + η)) hu hη
  linarith

section
variable {u η Ω eps μ lr D F : ℝ} {n T : Nat} (H : LmfSizes u η Ω eps μ lr D F n f T)
include H

theorem LmfSizes.gradient_nonneg : 0 ≤ Spec.lmfGradient u η D F n := by
  have := H.u_nonneg
  have := H.η_nonneg
  have := H.F_ge
  have := H.D_ge
  unfold Spec.lmfGradient sumBound
  positivity

theorem LmfSizes.eps_pos : 0 < eps := by
  have h1 := H.eps_ge
  have h2 := H.η_nonneg
  have h3 := pow_pos H.μ_pos 2
  have h4 := H.u_lt
  by_contra hn
  nlinarith

theorem LmfSizes.sum_le {k : Nat} (hk : k ≤ T + 1) :
    (1 + ((eps + sumBound u (Spec.lmfGradient u η D F n * Spec.lmfGradient u η D F n + 2 * η) k) * (1 + u) + η)) * (1 + u) + η ≤ Ω := by
  have hu := H.u_nonneg
  have hη := H.η_nonneg
  have hG := H.gradient_nonneg
  refine le_trans ?_ H.squares
  let r : Rounding ℝ := ⟨id, 0, 0, le_rfl, le_rfl, fun x => by simp⟩
  have := sumBound_mono (r := r) (η := η) (Q := Spec.lmfGradient u η D F n * Spec.lmfGradient u η D F n + 2 * η) hu hη (by positivity) hk
  have h1 : (eps + sumBound u (Spec.lmfGradient u η D F n * Spec.lmfGradient u η D F n + 2 * η) k) * (1 + u) ≤
      (eps + sumBound u (Spec.lmfGradient u η D F n * Spec.lmfGradient u η D F n + 2 * η) (T + 1)) * (1 + u) :=
    mul_le_mul_of_nonneg_right (by linarith) (by linarith)
  nlinarith

theorem LmfSizes.sum_le' {k : Nat} (hk : k ≤ T + 1) :
    sumBound u (Spec.lmfGradient u η D F n * Spec.lmfGradient u η D F n + 2 * η) k ≤ Ω := by
  have h := H.sum_le hk
  have hu := H.u_nonneg
  have hη := H.η_nonneg
  have hG := H.gradient_nonneg
  have he := H.eps_pos
  let r : Rounding ℝ := ⟨id, 0, 0, le_rfl, le_rfl, fun x => by simp⟩
  have := sumBound_nonneg (r := r) (η := η) (Q := Spec.lmfGradient u η D F n * Spec.lmfGradient u η D F n + 2 * η) hu hη (by positivity) k
  linarith [le_squares he.le this hu hη]

theorem LmfSizes.gradient_le : Spec.lmfGradient u η D F n ≤ Ω := by
  have h := H.sum_le (k := 1) (by omega)
  have hu := H.u_nonneg
  have hη := H.η_nonneg
  have hG := H.gradient_nonneg
  have he := H.eps_pos
  have h1 : Spec.lmfGradient u η D F n * Spec.lmfGradient u η D F n ≤
      sumBound u (Spec.lmfGradient u η D F n * Spec.lmfGradient u η D F n + 2 * η) 1 := by
    unfold sumBound
    have : 1 ≤ (1 + u) ^ (1 + 1) := one_le_growth hu 2
    rw [Nat.cast_one, mul_one]
    nlinarith [mul_nonneg hG hG, mul_nonneg (sub_nonneg.mpr this) (by positivity : 0 ≤ Spec.lmfGradient u η D F n * Spec.lmfGradient u η D F n + 2 * η)]
  have h2 : Spec.lmfGradient u η D F n ≤ 1 + Spec.lmfGradient u η D F n * Spec.lmfGradient u η D F n := by
    nlinarith [sq_nonneg (Spec.lmfGradient u η D F n - 1)]
  linarith [le_squares he.le ((mul_nonneg hG hG).trans h1) hu hη]

/-- The root is at least `μ` and at least the size of the gradient, up to rounding. -/
theorem root_ge {d y v : ℝ} (hyd : d ^ 2 * (1 - u) ^ 2 - 2 * η ≤ y) (a3 : (eps + y) * (1 - u) - η ≤ v) :
    μ ^ 2 + d ^ 2 * (1 - u) ^ 3 ≤ v := by
  have hu := H.u_nonneg
  have hw : 0 < 1 - u := by linarith [H.u_lt]
  have h1 : (d ^ 2 * (1 - u) ^ 2 - 2 * η) * (1 - u) ≤ y * (1 - u) := mul_le_mul_of_nonneg_right hyd hw.le
  have h2 := H.eps_ge
  have h3 := mul_nonneg hu H.η_nonneg
  have e : (d ^ 2 * (1 - u) ^ 2 - 2 * η) * (1 - u) = d ^ 2 * (1 - u) ^ 3 - 2 * η + 2 * (u * η) := by ring
  have e' : (eps + y) * (1 - u) = eps * (1 - u) + y * (1 - u) := by ring
  linarith

/-- The rounded root. -/
theorem root_below {w q : ℝ} (a5 : μ ≤ w) (b2 : w * (1 - u) - η ≤ q) : w * (1 - u) ^ 2 ≤ q := by
  have hw : 0 < 1 - u := by linarith [H.u_lt]
  have h1 := H.η_le
  have h2 : μ * u * (1 - u) ≤ w * u * (1 - u) := mul_le_mul_of_nonneg_right (mul_le_mul_of_nonneg_right a5 H.u_nonneg) hw.le
  have e : w * (1 - u) ^ 2 = w * (1 - u) - w * u * (1 - u) := by ring
  linarith

variable {r s : Rounding ℝ} (hru : r.u ≤ u) (hrη : r.η ≤ η)
include hru hrη

theorem gradient_within {sigm : Option ℝ → Option ℝ} (hsig : ∀ a X, Within X a → Within 1 (sigm a)) {reg : Option ℝ} (hreg : Within D reg)
    {pos : List (Vec f (Option ℝ) × Option ℝ)} {neg : List (Vec f (Option ℝ))} {x : Vec f (Option ℝ)} (hx : ∀ a, Within F (x a))
    (hpos : ∀ e ∈ pos, (∀ a, Within F (e.1 a)) ∧ Within D e.2) (hneg : ∀ y ∈ neg, ∀ a, Within F (y a)) (hn : 2 * pos.length + neg.length ≤ n)
    (a : Fin f) :
    Within (Spec.lmfGradient u η D F n) ((limitOps r Ω).sub ((limitOps r Ω).lmfDeriv sigm x pos neg a) ((limitOps r Ω).mul reg (x a))) := by
  have hu := H.u_nonneg
  have hη := H.η_nonneg
  have hF := H.F_ge
  have hD := H.D_ge
  have hΩ := H.gradient_le
  unfold Spec.lmfGradient at hΩ ⊢
  have hP : 0 ≤ (D * (1 + u) + η) * F := by positivity
  have hQ : 0 ≤ (D * (1 + u) + η) * F + 2 * η := by positivity
  have hb : ∀ {k}, k ≤ n + 1 → sumBound u ((D * (1 + u) + η) * F + 2 * η) k ≤ Ω := fun hk => (sumBound_mono hru hrη hQ hk).trans hΩ
  have hterm := term_le hru hrη hP rfl (hb le_rfl)
  have hW : 1 ≤ D * (1 + u) + η := by nlinarith
  have hWΩ : D * (1 + u) + η ≤ Ω := by nlinarith
  have hDW : D ≤ D * (1 + u) + η := by nlinarith
  -- a product of a weight and a factor
  have hmul : ∀ {w y : Option ℝ} {Z : ℝ}, 0 ≤ Z → Z ≤ D * (1 + u) + η → Within Z w → Within F y →
      Within ((D * (1 + u) + η) * F * (1 + u) + η) ((limitOps r Ω).mul w y) := fun {w y Z} hZ hZW hw hy =>
    mul_within hru hrη (within_mono hw hZW) hy hterm
  have hsd : ∀ y, (∀ a, Within F (y a)) → Within 1 (sigm ((limitOps r Ω).dot x y)) := fun y hy =>
    hsig _ _ (dot_within hru hrη (by linarith) H.scores hx hy)
  have h1 := within_foldl hru hrη (Q := (D * (1 + u) + η) * F + 2 * η) (n := n + 1)
    (fun t (e : Vec f (Option ℝ) × Option ℝ) => (limitOps r Ω).add t ((limitOps r Ω).mul e.2 (e.1 a))) pos (fun e he k t hk ht =>
      sum_add hru hrη hP rfl (hb hk) ht (hmul (by linarith) hDW (hpos e he).2 ((hpos e he).1 a))) 0 (some 0) (by omega) (zero_within hru hrη)
  have h2 := within_foldl hru hrη (Q := (D * (1 + u) + η) * F + 2 * η) (n := n + 1)
    (fun t (e : Vec f (Option ℝ) × Option ℝ) => (limitOps r Ω).sub t
      ((limitOps r Ω).mul ((limitOps r Ω).mul (sigm ((limitOps r Ω).dot x e.1)) e.2) (e.1 a))) pos (fun e he k t hk ht => by
      refine sum_sub hru hrη hP rfl (hb hk) ht (hmul (zero_le_one.trans hW) le_rfl ?_ ((hpos e he).1 a))
      have := mul_within hru hrη (hsd e.1 (hpos e he).1) (hpos e he).2 (Ω := Ω) (by rw [one_mul]; exact hWΩ)
      rw [one_mul] at this
      exact this) _ _ (by omega) h1
  have h3 := within_foldl hru hrη (Q := (D * (1 + u) + η) * F + 2 * η) (n := n + 1)
    (fun t (y : Vec f (Option ℝ)) => (limitOps r Ω).sub t ((limitOps r Ω).mul (sigm ((limitOps r Ω).dot x y)) (y a))) neg
    (fun y hy k t hk ht => sum_sub hru hrη hP rfl (hb hk) ht (hmul zero_le_one hW (hsd y (hneg y hy)) (hneg y hy a))) _ _ (by omega) h2
  have h4 : Within (sumBound u ((D * (1 + u) + η) * F + 2 * η) n) ((limitOps r Ω).lmfDeriv sigm x pos neg a) := by
    unfold FloatOps.lmfDeriv
    rw [foldl_apply (fun t (y : Vec f (Option ℝ)) a => (limitOps r Ω).sub t ((limitOps r Ω).mul (sigm ((limitOps r Ω).dot x y)) (y a))),
      foldl_apply (fun t (e : Vec f (Option ℝ) × Option ℝ) a => (limitOps r Ω).sub t
        ((limitOps r Ω).mul ((limitOps r Ω).mul (sigm ((limitOps r Ω).dot x e.1)) e.2) (e.1 a))),
      foldl_apply (fun t (e : Vec f (Option ℝ) × Option ℝ) a => (limitOps r Ω).add t ((limitOps r Ω).mul e.2 (e.1 a)))]
    exact within_mono h3 (sumBound_mono hru hrη hQ (by omega))
  exact sum_sub hru hrη hP rfl (hb le_rfl) h4 (hmul (by linarith) hDW hreg (hx a))

variable (hsu : s.u ≤ u) (hsη : s.η ≤ η) (hr : r.Orderly 2) (hs : s.Orderly 2) {Ω' : ℝ} (hΩ' : Ω ≤ Ω')
include hsu hsη hr hs hΩ'

/-- The sum of squares of a component, with its lower bound. -/
theorem squares_within {k : Nat} (hk : k ≤ T) {y₀ d : ℝ} (hy0 : 0 ≤ y₀)
    (hy : y₀ ≤ sumBound u (Spec.lmfGradient u η D F n * Spec.lmfGradient u η D F n + 2 * η) k) (hd : |d| ≤ Spec.lmfGradient u η D F n) :
    ∃ y, (limitOps r Ω).add (some y₀) ((limitOps r Ω).mul (some d) (some d)) = some y ∧ 0 ≤ y ∧
      y ≤ sumBound u (Spec.lmfGradient u η D F n * Spec.lmfGradient u η D F n + 2 * η) (k + 1) ∧ d ^ 2 * (1 - u) ^ 2 - 2 * η ≤ y := by
  have hu := H.u_nonneg
  have hu1 := H.u_lt
  have hη := H.η_nonneg
  have hG := H.gradient_nonneg
  have hΩ := H.sum_le' (show k + 1 ≤ T + 1 by omega)
  have hdd : |d * d| ≤ Spec.lmfGradient u η D F n * Spec.lmfGradient u η D F n := by
    rw [abs_mul]
    exact mul_le_mul hd hd (abs_nonneg _) hG
  have hm : (limitOps r Ω).mul (some d) (some d) = some (r.rnd (d * d)) :=
    limit_eq hru hrη hdd (term_le hru hrη (mul_nonneg hG hG) rfl hΩ)
  rw [hm]
  have hp := rnd_below hru hrη (mul_self_nonneg d)
  have hp0 := hr.nonneg (mul_self_nonneg d)
  obtain ⟨y, h1, h2⟩ := sum_add hru hrη (mul_nonneg hG hG) rfl hΩ (s := some y₀) (p := some (r.rnd (d * d)))
    ⟨y₀, rfl, by rwa [abs_of_nonneg hy0]⟩ ⟨_, rfl, rnd_size hru hrη hdd⟩
  have h3 : y = r.rnd (y₀ + r.rnd (d * d)) := by
    have h1' : limit r Ω (y₀ + r.rnd (d * d)) = some y := h1
    unfold limit at h1'
    split_ifs at h1'
    exact (Option.some.inj h1').symm
  have h4 : 0 ≤ y := by
    rw [h3]
    exact hr.nonneg (by linarith)
  refine ⟨y, h1, h4, by rwa [abs_of_nonneg h4] at h2, ?_⟩
  have h5 := rnd_below hru hrη (by linarith : 0 ≤ y₀ + r.rnd (d * d))
  rw [← h3] at h5
  have h6 : r.rnd (d * d) * (1 - u) ≤ (y₀ + r.rnd (d * d)) * (1 - u) := mul_le_mul_of_nonneg_right (by linarith) (by linarith)
  have h7 : (d * d * (1 - u) - η) * (1 - u) ≤ r.rnd (d * d) * (1 - u) := mul_le_mul_of_nonneg_right hp (by linarith)
  nlinarith [mul_nonneg hu hη]

/-- The new component. -/
theorem step_within {k : Nat} (hk : k ≤ T) {y d x B : ℝ} (hy0 : 0 ≤ y)
    (hy : y ≤ sumBound u (Spec.lmfGradient u η D F n * Spec.lmfGradient u η D F n + 2 * η) (k + 1)) (hd : |d| ≤ Spec.lmfGradient u η D F n)
    (hyd : d ^ 2 * (1 - u) ^ 2 - 2 * η ≤ y) (hx : |x| ≤ B)
    (hB : ((B + Spec.lmfStep u η lr (Spec.lmfGradient u η D F n)) * (1 + u) + η) * (1 + u) + η ≤ F) :
    Within (((B + Spec.lmfStep u η lr (Spec.lmfGradient u η D F n)) * (1 + u) + η) * (1 + u) + η)
      (((limitOps s Ω').add (some x) ((limitOps s Ω').mul ((limitOps s Ω').div (some lr)
        (limitSqrt s Ω' ((limitOps s Ω').add (some eps) (some y)))) (some d))).bind (limit r Ω)) := by
  have hu := H.u_nonneg
  have hu1 := H.u_lt
  have hη := H.η_nonneg
  have hG := H.gradient_nonneg
  have he := H.eps_pos
  have hμ := H.μ_pos
  have hlr := H.lr_nonneg
  have hsq := H.sum_le (show k + 1 ≤ T + 1 by omega)
  generalize hS : sumBound u (Spec.lmfGradient u η D F n * Spec.lmfGradient u η D F n + 2 * η) (k + 1) = S at *
  generalize Spec.lmfGradient u η D F n = G at *
  have hB0 : 0 ≤ B := (abs_nonneg x).trans hx
  have hw : 0 < 1 - u := by linarith
  -- the argument of the square root
  have hV0 : 0 ≤ (eps + S) * (1 + u) + η := by
    have : 0 ≤ S := hy0.trans hy
    positivity
  have hV : (eps + S) * (1 + u) + η ≤ Ω' := by
    have := le_scaled (by linarith : 0 ≤ 1 + ((eps + S) * (1 + u) + η)) hu hη
    linarith
  have hey : |eps + y| ≤ eps + S := by
    rw [abs_of_nonneg (by linarith)]
    linarith
  have a1 : (limitOps s Ω').add (some eps) (some y) = some (s.rnd (eps + y)) := limit_eq hsu hsη hey hV
  have a2 := rnd_size hsu hsη hey
  have a3 := rnd_below hsu hsη (by linarith : 0 ≤ eps + y)
  have a0 : 0 ≤ s.rnd (eps + y) := hs.nonneg (by linarith)
  rw [abs_of_nonneg a0] at a2
  rw [a1]
  generalize s.rnd (eps + y) = v at *
  have a4 : μ ^ 2 + d ^ 2 * (1 - u) ^ 3 ≤ v := root_ge H hyd a3
  have a5 : μ ≤ Real.sqrt v := Real.le_sqrt_of_sq_le (by linarith [mul_nonneg (sq_nonneg d) (pow_pos hw 3).le])
  have a6 : |d| * (1 - u) ^ 2 ≤ Real.sqrt v := by
    refine Real.le_sqrt_of_sq_le ?_
    rw [mul_pow, sq_abs, ← pow_mul]
    have : (1 - u) ^ (2 * 2) ≤ (1 - u) ^ 3 := pow_le_pow_of_le_one hw.le (by linarith) (by norm_num)
    have := mul_le_mul_of_nonneg_left this (sq_nonneg d)
    linarith [sq_nonneg μ]
  have a7 : Real.sqrt v ≤ 1 + ((eps + S) * (1 + u) + η) := by
    refine Real.sqrt_le_iff.mpr ⟨by linarith, ?_⟩
    generalize (eps + S) * (1 + u) + η = V at *
    linarith [sq_nonneg V, add_sq 1 V]
  have b1 : limitSqrt s Ω' (some v) = some (s.rnd (Real.sqrt v)) := by
    show (if v < 0 then none else limit s Ω' (Real.sqrt v)) = _
    rw [if_neg (not_lt.mpr a0)]
    exact limit_eq hsu hsη (by rw [abs_of_nonneg (Real.sqrt_nonneg v)]; exact a7) (hsq.trans hΩ')
  have b2 := rnd_below hsu hsη (Real.sqrt_nonneg v)
  rw [b1]
  generalize s.rnd (Real.sqrt v) = q at *
  have b3 : Real.sqrt v * (1 - u) ^ 2 ≤ q := root_below H a5 b2
  have b4 : μ * (1 - u) ^ 2 ≤ q := (mul_le_mul_of_nonneg_right a5 (by positivity)).trans b3
  have b5 : |d| * (1 - u) ^ 4 ≤ q := by
    have := mul_le_mul_of_nonneg_right a6 (by positivity : 0 ≤ (1 - u) ^ 2)
    have e : |d| * (1 - u) ^ 2 * (1 - u) ^ 2 = |d| * (1 - u) ^ 4 := by ring
    linarith
  have hq : 0 < q := lt_of_lt_of_le (by positivity) b4
  -- the length of the step
  have c1 : |lr / q| ≤ lr / (μ * (1 - u) ^ 2) := by
    rw [abs_of_nonneg (by positivity)]
    exact div_le_div_of_nonneg_left hlr (by positivity) b4
  have c2 : (limitOps s Ω').div (some lr) (some q) = some (s.rnd (lr / q)) := by
    show (if q = 0 then none else limit s Ω' (lr / q)) = _
    rw [if_neg hq.ne']
    exact limit_eq hsu hsη c1 (H.rate.trans hΩ')
  have c3 := rnd_size hsu hsη (le_refl |lr / q|)
  rw [abs_of_nonneg (by positivity : 0 ≤ lr / q)] at c3
  rw [c2]
  generalize s.rnd (lr / q) = t at *
  have c4 : |t * d| ≤ (1 + u) / (1 - u) ^ 4 * lr + η * G := by
    rw [abs_mul]
    have h1 : |t| * |d| ≤ (lr / q * (1 + u) + η) * |d| := mul_le_mul_of_nonneg_right c3 (abs_nonneg d)
    have h2 : |d| / q ≤ 1 / (1 - u) ^ 4 := by
      rw [div_le_div_iff₀ hq (by positivity)]
      linarith
    have h3 : lr * (1 + u) * (|d| / q) ≤ lr * (1 + u) * (1 / (1 - u) ^ 4) := mul_le_mul_of_nonneg_left h2 (by positivity)
    have h4 : η * |d| ≤ η * G := mul_le_mul_of_nonneg_left hd hη
    have e1 : (lr / q * (1 + u) + η) * |d| = lr * (1 + u) * (|d| / q) + η * |d| := by ring
    have e2 : lr * (1 + u) * (1 / (1 - u) ^ 4) = (1 + u) / (1 - u) ^ 4 * lr := by ring
    linarith
  have e3 : ((1 + u) / (1 - u) ^ 4 * lr + η * G) * (1 + u) + η = Spec.lmfStep u η lr G := by
    unfold Spec.lmfStep
    ring
  have hst : 0 ≤ Spec.lmfStep u η lr G := by
    unfold Spec.lmfStep
    positivity
  have hF := H.F_le
  have d1 := le_scaled (by linarith : 0 ≤ B + Spec.lmfStep u η lr G) hu hη
  have d2 := le_scaled (by linarith : 0 ≤ (B + Spec.lmfStep u η lr G) * (1 + u) + η) hu hη
  have c5 : (limitOps s Ω').mul (some t) (some d) = some (s.rnd (t * d)) := limit_eq hsu hsη c4 (by rw [e3]; linarith)
  have c6 := rnd_size hsu hsη c4
  rw [e3] at c6
  rw [c5]
  have c7 : |x + s.rnd (t * d)| ≤ B + Spec.lmfStep u η lr G := (abs_add_le _ _).trans (add_le_add hx c6)
  have c8 : (limitOps s Ω').add (some x) (some (s.rnd (t * d))) = some (s.rnd (x + s.rnd (t * d))) := limit_eq hsu hsη c7 (by linarith)
  rw [c8]
  exact limit_within hru hrη (rnd_size hsu hsη c7) (by linarith)

/-- A row. -/
theorem row_within {sigm : Option ℝ → Option ℝ} (hsig : ∀ a X, Within X a → Within 1 (sigm a)) {reg : ℝ} (hreg : |reg| ≤ D)
    {pos : List (Vec f (Option ℝ) × Option ℝ)} {neg : List (Vec f (Option ℝ))} {x sums : Vec f (Option ℝ)} {B : ℝ} (hx : ∀ a, Within B (x a))
    (hpos : ∀ e ∈ pos, (∀ a, Within F (e.1 a)) ∧ Within D e.2) (hneg : ∀ y ∈ neg, ∀ a, Within F (y a)) (hn : 2 * pos.length + neg.length ≤ n)
    {k : Nat} (hk : k ≤ T) (hs0 : ∀ a, SumWithin (sumBound u (Spec.lmfGradient u η D F n * Spec.lmfGradient u η D F n + 2 * η) k) (sums a))
    (hB0 : 0 ≤ B) (hB : ((B + Spec.lmfStep u η lr (Spec.lmfGradient u η D F n)) * (1 + u) + η) * (1 + u) + η ≤ F) (a : Fin f) :
    Within (((B + Spec.lmfStep u η lr (Spec.lmfGradient u η D F n)) * (1 + u) + η) * (1 + u) + η)
      ((mixedLmfRow (limitOps r Ω) (limitOps s Ω') (fun a => a.bind (limit r Ω)) sigm (limitSqrt s Ω') (some eps) (some lr) (some reg)
        pos neg x sums).1 a) ∧
    SumWithin (sumBound u (Spec.lmfGradient u η D F n * Spec.lmfGradient u η D F n + 2 * η) (k + 1))
      ((mixedLmfRow (limitOps r Ω) (limitOps s Ω') (fun a => a.bind (limit r Ω)) sigm (limitSqrt s Ω') (some eps) (some lr) (some reg)
        pos neg x sums).2 a) := by
  have hu := H.u_nonneg
  have hη := H.η_nonneg
  have hG := H.gradient_nonneg
  have hlr := H.lr_nonneg
  have hst : 0 ≤ Spec.lmfStep u η lr (Spec.lmfGradient u η D F n) := by
    have := H.u_lt
    have : 0 < 1 - u := by linarith
    unfold Spec.lmfStep
    positivity
  have d1 := le_scaled (by linarith : 0 ≤ B + Spec.lmfStep u η lr (Spec.lmfGradient u η D F n)) hu hη
  have d2 := le_scaled (by linarith : 0 ≤ (B + Spec.lmfStep u η lr (Spec.lmfGradient u η D F n)) * (1 + u) + η) hu hη
  unfold mixedLmfRow
  split_ifs with hp
  · refine ⟨within_mono (hx a) (by linarith), ?_⟩
    obtain ⟨y, h1, h2, h3⟩ := hs0 a
    exact ⟨y, h1, h2, h3.trans (sumBound_mono hru hrη (by positivity) (Nat.le_succ k))⟩
  · obtain ⟨d, hd, hdG⟩ := gradient_within H hru hrη hsig (reg := some reg) ⟨reg, rfl, hreg⟩ (fun a => within_mono (hx a) (by linarith : B ≤ F))
      hpos hneg hn a
    obtain ⟨y₀, h1, h2, h3⟩ := hs0 a
    obtain ⟨x₀, hx0, hxB⟩ := hx a
    obtain ⟨y, hy, hy0, hyS, hyd⟩ := squares_within H hru hrη hsu hsη hr hs hΩ' hk h2 h3 hdG
    dsimp only
    rw [hd, h1, hy, hx0]
    exact ⟨step_within H hru hrη hsu hsη hr hs hΩ' hk hy0 hyS hdG hyd hxB hB, y, rfl, hy0, hyS⟩

end

end Implicit
