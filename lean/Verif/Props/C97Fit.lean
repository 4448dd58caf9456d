import Verif.Props.C97
/-!
# C97: BPR training in floating point stays in range — samples and epochs
-/

set_option linter.unusedSectionVars false

namespace Implicit

open Spec

/-! ## Numbers -/

/-- The growth of the energy by one sample, with rounding. -/
noncomputable def floatGrowth (u lr reg : ℝ) (factors : Nat) : ℝ :=
  (1 + (9 / 4 + 2 * lr) * u) * (bprGrowth lr reg + 6 * (lr * (u * (factors + 2)))) + 146 * (lr * u)

/-- What one sample can add to the energy, with rounding. -/
noncomputable def floatGain (u lr : ℝ) : ℝ := 3 * lr + 5 * lr ^ 2 + u

/-- Parameters with which no operation overflows as long as the energy is at most `E`. -/
structure BprRange (u η Ω lr reg : ℝ) (factors : Nat) (E : ℝ) : Prop where
  u_nonneg : 0 ≤ u
  η_nonneg : 0 ≤ η
  lr_nonneg : 0 ≤ lr
  lr_le : lr ≤ 1
  reg_nonneg : 0 ≤ reg
  reg_le : reg ≤ 1
  E_nonneg : 0 ≤ E
  u_small : u * (factors + 2) ≤ 1 / 1000
  η_small : 100 * (factors + 2) * η * (E + 1) ≤ u
  Ω_large : 10 * (E + 1) ≤ Ω

/-- What training needs of `z = 1.0 / (1.0 + exp(score))`: finite, between 0 and 1, and small for large scores. -/
def GoodSig (sig : Option ℝ → Option ℝ) (B : ℝ) : Prop :=
  ∀ s, |s| ≤ B → ∃ z, sig (some s) = some z ∧ 0 ≤ z ∧ z ≤ 1 ∧ z * s ≤ 1 / 2

section
variable {u η Ω lr reg E : ℝ} {factors : Nat} (P : BprRange u η Ω lr reg factors E)
include P

theorem BprRange.u_le : u ≤ 1 / 2000 := by
  have h := P.u_small
  have h1 : (0 : ℝ) ≤ u * factors := mul_nonneg P.u_nonneg (by positivity)
  linarith

theorem BprRange.η_le : η ≤ u / 100 := by
  have h := P.η_small
  have h0 := P.η_nonneg
  have hf : (0 : ℝ) ≤ factors := by positivity
  have h1 : 1 * η ≤ (factors + 2) * η := mul_le_mul_of_nonneg_right (by linarith) h0
  have h2 : (factors + 2) * η * 1 ≤ (factors + 2) * η * (E + 1) :=
    mul_le_mul_of_nonneg_left (by linarith [P.E_nonneg]) (by positivity)
  linarith

theorem BprRange.η_factors : 100 * (factors + 2) * η ≤ u := by
  have h := P.η_small
  have h0 := P.η_nonneg
  have h2 : (factors + 2) * η * 1 ≤ (factors + 2) * η * (E + 1) :=
    mul_le_mul_of_nonneg_left (by linarith [P.E_nonneg]) (by positivity)
  linarith

theorem floatGrowth_ge : 1 ≤ floatGrowth u lr reg factors := by
  have hG1 : 1 ≤ bprGrowth lr reg := le_max_left _ _
  have h1 : 0 ≤ (9 / 4 + 2 * lr) * u := mul_nonneg (by linarith [P.lr_nonneg]) P.u_nonneg
  have h2 : 0 ≤ lr * (u * (factors + 2)) := mul_nonneg P.lr_nonneg (mul_nonneg P.u_nonneg (by positivity))
  have h3 : 0 ≤ lr * u := mul_nonneg P.lr_nonneg P.u_nonneg
  unfold floatGrowth
  nlinarith

theorem floatGain_nonneg : 0 ≤ floatGain u lr := by
  have := P.lr_nonneg
  have := P.u_nonneg
  unfold floatGain
  positivity

end

/-- The exact part of a sample. -/
theorem exact_part {p q lr S T b c h : ℝ} (hp0 : 0 ≤ p) (hp1 : p ≤ 1) (q0 : 0 ≤ q) (q1 : q ≤ lr) (h0 : 0 ≤ h)
    (hqs : q * S ≤ h) (hT : 0 ≤ T) :
    (p ^ 2 + 2 * q ^ 2) * T + 4 * p * q * (S - (b - c)) + 2 * (p * b + q) ^ 2 + 2 * (p * c - q) ^ 2 ≤
      (p ^ 2 + 2 * lr ^ 2) * (T + 2 * b ^ 2 + 2 * c ^ 2) + 4 * h + 4 * lr ^ 2 := by
  have hpqs : p * (q * S) ≤ h := by
    rcases le_total (q * S) 0 with h' | h'
    · have := mul_nonpos_of_nonneg_of_nonpos hp0 h'
      linarith
    · have := mul_le_mul_of_nonneg_right hp1 h'
      linarith
  have hq2 : q ^ 2 ≤ lr ^ 2 := pow_le_pow_left₀ q0 q1 2
  have h1 := mul_le_mul_of_nonneg_right hq2 hT
  have h2 : 0 ≤ lr ^ 2 * (b ^ 2 + c ^ 2) := by positivity
  linarith [show 4 * p * q * (S - (b - c)) + 2 * (p * b + q) ^ 2 + 2 * (p * c - q) ^ 2 =
    4 * (p * (q * S)) + 2 * p ^ 2 * (b ^ 2 + c ^ 2) + 4 * q ^ 2 by ring]

/-- The arithmetic of a whole sample. -/
theorem sample_arith {u η Ω lr reg E : ℝ} {factors : Nat} (P : BprRange u η Ω lr reg factors E) {q S T T' b c b' c' h W : ℝ}
    (q0 : 0 ≤ q) (q1 : q ≤ lr) (hqs : q * S ≤ h) (hh : h = lr / 2 + lr * (2 * u * (factors + 2) * W + u)) (hW0 : 0 ≤ W)
    (hT : 0 ≤ T) (hW : W ≤ 3 / 4 * (T + 2 * b ^ 2 + 2 * c ^ 2 + 1))
    (hs : T' ≤ (1 + (9 / 4 + 2 * lr) * u) * (((1 - lr * reg) ^ 2 + 2 * q ^ 2) * T + 4 * (1 - lr * reg) * q * (S - (b - c))) +
      11 / 10 * (lr * u) * (132 * T) + 60 * factors * η)
    (hb : b' ^ 2 ≤ (1 + (9 / 4 + 2 * lr) * u) * ((1 - lr * reg) * b + q) ^ 2 + 11 / 10 * (lr * u) * (50 * 1 ^ 2 + 32 * b ^ 2) + 20 * η)
    (hc : c' ^ 2 ≤ (1 + (9 / 4 + 2 * lr) * u) * ((1 - lr * reg) * c - q) ^ 2 + 11 / 10 * (lr * u) * (50 * 1 ^ 2 + 32 * c ^ 2) + 20 * η) :
    T' + 2 * b' ^ 2 + 2 * c' ^ 2 ≤ floatGrowth u lr reg factors * (T + 2 * b ^ 2 + 2 * c ^ 2) + floatGain u lr := by
  have hu0 := P.u_nonneg
  have hl0 := P.lr_nonneg
  have hl1 := P.lr_le
  have hu1 := P.u_le
  have hp1 : 1 - lr * reg ≤ 1 := by linarith [mul_nonneg hl0 P.reg_nonneg]
  have hp0 : 0 ≤ 1 - lr * reg := by
    have := mul_le_mul hl1 P.reg_le P.reg_nonneg (by norm_num : (0 : ℝ) ≤ 1)
    linarith
  have hv0 : 0 ≤ u * (factors + 2) := mul_nonneg hu0 (by positivity)
  have hv1 := P.u_small
  have hlv0 : 0 ≤ lr * (u * (factors + 2)) := mul_nonneg hl0 hv0
  have hlu0 : 0 ≤ lr * u := mul_nonneg hl0 hu0
  have h0 : 0 ≤ h := by
    rw [hh]
    have : 0 ≤ 2 * u * (factors + 2) * W + u := by
      have := mul_nonneg hv0 hW0
      linarith
    have := mul_nonneg hl0 this
    linarith
  have hX := exact_part (b := b) (c := c) hp0 hp1 q0 q1 h0 hqs hT
  set L := T + 2 * b ^ 2 + 2 * c ^ 2 with hL
  have hL0 : 0 ≤ L := by positivity
  have hG : (1 - lr * reg) ^ 2 + 2 * lr ^ 2 ≤ bprGrowth lr reg := le_max_right _ _
  have hGL := mul_le_mul_of_nonneg_right hG hL0
  have h4 : 4 * h ≤ 2 * lr + 6 * (lr * (u * (factors + 2))) * L + 1 / 100 * lr := by
    have e1 := mul_le_mul_of_nonneg_left hW hlv0
    have e2 : lr * (u * (factors + 2)) ≤ lr * (1 / 1000) := mul_le_mul_of_nonneg_left hv1 hl0
    have e3 : lr * u ≤ lr * (1 / 2000) := mul_le_mul_of_nonneg_left hu1 hl0
    rw [hh]
    linarith
  set C := 1 + (9 / 4 + 2 * lr) * u with hC
  have hC1 : 1 ≤ C := by
    have : 0 ≤ (9 / 4 + 2 * lr) * u := mul_nonneg (by linarith) hu0
    linarith
  have hC2 : C ≤ 1 + 1 / 400 := by
    have : (9 / 4 + 2 * lr) * u ≤ (17 / 4) * u := mul_le_mul_of_nonneg_right (by linarith) hu0
    linarith
  have hY : C * ((((1 - lr * reg) ^ 2 + 2 * q ^ 2) * T + 4 * (1 - lr * reg) * q * (S - (b - c))) + 2 * ((1 - lr * reg) * b + q) ^ 2 +
      2 * ((1 - lr * reg) * c - q) ^ 2) ≤
      C * ((bprGrowth lr reg + 6 * (lr * (u * (factors + 2)))) * L + (201 / 100 * lr + 4 * lr ^ 2)) :=
    mul_le_mul_of_nonneg_left (by linarith) (by linarith)
  have hZ : C * (201 / 100 * lr + 4 * lr ^ 2) ≤ (1 + 1 / 400) * (201 / 100 * lr + 4 * lr ^ 2) :=
    mul_le_mul_of_nonneg_right hC2 (by positivity)
  have hη := P.η_factors
  have hη0 := P.η_nonneg
  have hηf : 0 ≤ (factors : ℝ) * η := mul_nonneg (by positivity) hη0
  have hl2 : 0 ≤ lr ^ 2 := by positivity
  have hlul : lr * u * L ≤ lr * u * L := le_rfl
  have hluL0 : 0 ≤ lr * u * L := mul_nonneg hlu0 hL0
  have hluT : lr * u * (b ^ 2 + c ^ 2) ≥ 0 := by positivity
  have hlu1 : lr * u ≤ lr * (1 / 2000) := mul_le_mul_of_nonneg_left hu1 hl0
  have hE : floatGrowth u lr reg factors * L + floatGain u lr =
      C * ((bprGrowth lr reg + 6 * (lr * (u * (factors + 2)))) * L) + 146 * (lr * u * L) + (3 * lr + 5 * lr ^ 2 + u) := by
    unfold floatGrowth floatGain
    rw [← hC]
    ring
  rw [hE]
  have hLT : lr * u * L = lr * u * T + 2 * (lr * u * b ^ 2) + 2 * (lr * u * c ^ 2) := by rw [hL]; ring
  have b0 : 0 ≤ lr * u * b ^ 2 := by positivity
  have c0 : 0 ≤ lr * u * c ^ 2 := by positivity
  have t0 : 0 ≤ lr * u * T := by positivity
  rw [mul_add] at hY
  linarith

/-! ## One coordinate -/

section
variable {r : Rounding ℝ} {u η Ω lr reg E : ℝ} {factors : Nat} (hu : r.u ≤ u) (hη : r.η ≤ η) (hr : r.Orderly 2)
  (P : BprRange u η Ω lr reg factors E)
include hu hη hr P

theorem negOne_limit : (limitOps r Ω).negOne = some (-1) := by
  have h : r.rnd (-1) = -1 := by
    have := hr.exact (-2) (by decide)
    norm_num at this
    exact this
  show limit r Ω (0 - 1) = some (-1)
  unfold limit
  rw [zero_sub, h, if_pos]
  have := P.Ω_large
  have := P.E_nonneg
  rw [abs_neg, abs_one]
  linarith

theorem user_near {z a b c : ℝ} (z0 : 0 ≤ z) (z1 : z ≤ 1) (hab : a ^ 2 + b ^ 2 + c ^ 2 ≤ E) :
    ∃ w, (limitOps r Ω).bprUser (some lr) (some reg) (some z) (some a) (some b) (some c) = some w ∧
      w ^ 2 ≤ (1 + (9 / 4 + 2 * lr) * u) * ((1 - lr * reg) * a + lr * z * (b - c)) ^ 2 +
        11 / 10 * (lr * u) * (50 * (b - c) ^ 2 + 32 * a ^ 2) + 20 * η := by
  have hu1 := P.u_le
  have hη1 := P.η_le
  have hη0 := P.η_nonneg
  have hu0 := P.u_nonneg
  have hΩ := P.Ω_large
  have hE := P.E_nonneg
  set g := |b - c| with hg
  have hg0 : 0 ≤ g := abs_nonneg _
  have hgE : g ≤ 1 + E / 2 := by
    refine (abs_sub _ _).trans ?_
    have h1 : |b| ≤ (1 + b ^ 2) / 2 := by rw [← sq_abs b]; nlinarith [sq_nonneg (|b| - 1)]
    have h2 : |c| ≤ (1 + c ^ 2) / 2 := by rw [← sq_abs c]; nlinarith [sq_nonneg (|c| - 1)]
    have := sq_nonneg a
    linarith
  have haE : |a| ≤ (1 + E) / 2 := by
    have h1 : |a| ≤ (1 + a ^ 2) / 2 := by rw [← sq_abs a]; nlinarith [sq_nonneg (|a| - 1)]
    have := sq_nonneg b
    have := sq_nonneg c
    linarith
  have hug : u * g ≤ 1 / 2000 * g := mul_le_mul_of_nonneg_right hu1 hg0
  have hug0 : 0 ≤ u * g := mul_nonneg hu0 hg0
  have huug : u * (u * g) ≤ 1 / 2000 * (u * g) := mul_le_mul_of_nonneg_right hu1 hug0
  have huη : u * η ≤ 1 / 2000 * η := mul_le_mul_of_nonneg_right hu1 hη0
  obtain ⟨d, ed, nd⟩ := limit_near (x := b - c) (y := b - c) (e := 0) (X := g) hu hη (Ω := Ω) (by simp) le_rfl (by linarith)
  have hx2 : |z * d - z * (b - c)| ≤ u * g + η := by
    rw [← mul_sub, abs_mul, abs_of_nonneg z0]
    refine (mul_le_of_le_one_left (abs_nonneg _) z1).trans ?_
    linarith
  have hy2 : |z * (b - c)| ≤ g := by
    rw [abs_mul, abs_of_nonneg z0]
    exact mul_le_of_le_one_left hg0 z1
  obtain ⟨γ, eγ, nγ⟩ := limit_near hu hη (Ω := Ω) hx2 hy2 (by linarith)
  obtain ⟨w, ew, nw⟩ := step_near (w := a) (γ := γ) (γ₀ := z * (b - c)) (g := g) (Ω := Ω) hu hη hu0 (by linarith) hη0 (by linarith)
    P.lr_nonneg P.lr_le P.reg_nonneg P.reg_le (by linarith) hy2 (by linarith)
  refine ⟨w, ?_, ?_⟩
  · unfold FloatOps.bprUser
    have h1 : (limitOps r Ω).sub (some b) (some c) = some d := ed
    rw [h1]
    have h2 : (limitOps r Ω).mul (some z) (some d) = some γ := eγ
    rw [h2]
    exact ew
  · have := square_near hu0 (by linarith) hη0 hη1 P.lr_nonneg P.lr_le nw hg0
    rw [hg, sq_abs] at this
    rw [show (1 - lr * reg) * a + lr * z * (b - c) = a + lr * (z * (b - c) - reg * a) by ring]
    exact this

theorem liked_near {z a b : ℝ} (z0 : 0 ≤ z) (z1 : z ≤ 1) (hab : a ^ 2 + b ^ 2 ≤ E) :
    ∃ w, (limitOps r Ω).bprLiked (some lr) (some reg) (some z) (some a) (some b) = some w ∧
      w ^ 2 ≤ (1 + (9 / 4 + 2 * lr) * u) * ((1 - lr * reg) * b + lr * z * a) ^ 2 +
        11 / 10 * (lr * u) * (50 * a ^ 2 + 32 * b ^ 2) + 20 * η := by
  have hu1 := P.u_le
  have hη1 := P.η_le
  have hη0 := P.η_nonneg
  have hu0 := P.u_nonneg
  have hΩ := P.Ω_large
  have hE := P.E_nonneg
  set g := |a| with hg
  have hg0 : 0 ≤ g := abs_nonneg _
  have hgE : g ≤ (1 + E) / 2 := by
    have h1 : |a| ≤ (1 + a ^ 2) / 2 := by rw [← sq_abs a]; nlinarith [sq_nonneg (|a| - 1)]
    have := sq_nonneg b
    linarith
  have hbE : |b| ≤ (1 + E) / 2 := by
    have h1 : |b| ≤ (1 + b ^ 2) / 2 := by rw [← sq_abs b]; nlinarith [sq_nonneg (|b| - 1)]
    have := sq_nonneg a
    linarith
  have hug : u * g ≤ 1 / 2000 * g := mul_le_mul_of_nonneg_right hu1 hg0
  have hug0 : 0 ≤ u * g := mul_nonneg hu0 hg0
  have hy2 : |z * a| ≤ g := by
    rw [abs_mul, abs_of_nonneg z0]
    exact mul_le_of_le_one_left hg0 z1
  obtain ⟨γ, eγ, nγ⟩ := limit_near (x := z * a) (y := z * a) (e := 0) (X := g) hu hη (Ω := Ω) (by simp) hy2 (by linarith)
  obtain ⟨w, ew, nw⟩ := step_near (w := b) (γ := γ) (γ₀ := z * a) (g := g) (Ω := Ω) hu hη hu0 (by linarith) hη0 (by linarith)
    P.lr_nonneg P.lr_le P.reg_nonneg P.reg_le (by linarith) hy2 (by linarith)
  refine ⟨w, ?_, ?_⟩
  · unfold FloatOps.bprLiked
    have h2 : (limitOps r Ω).mul (some z) (some a) = some γ := eγ
    rw [h2]
    exact ew
  · have := square_near hu0 (by linarith) hη0 hη1 P.lr_nonneg P.lr_le nw hg0
    rw [hg, sq_abs] at this
    rw [show (1 - lr * reg) * b + lr * z * a = b + lr * (z * a - reg * b) by ring]
    exact this

/-- `-z`, as computed. -/
theorem negz_near {z : ℝ} (z0 : 0 ≤ z) (z1 : z ≤ 1) :
    ∃ y, (limitOps r Ω).mul (limitOps r Ω).negOne (some z) = some y ∧ |y - -z| ≤ u + η := by
  have hu1 := P.u_le
  have hη1 := P.η_le
  have hu0 := P.u_nonneg
  have hΩ := P.Ω_large
  have hE := P.E_nonneg
  rw [negOne_limit hu hη hr P]
  obtain ⟨y, ey, ny⟩ := limit_near (x := -1 * z) (y := -z) (e := 0) (X := 1) hu hη (Ω := Ω) (by simp)
    (by rw [abs_neg, abs_of_nonneg z0]; exact z1) (by linarith)
  exact ⟨y, ey, by linarith⟩

theorem disliked_near {z a c : ℝ} (z0 : 0 ≤ z) (z1 : z ≤ 1) (hab : a ^ 2 + c ^ 2 ≤ E) :
    ∃ w, (limitOps r Ω).bprDisliked (some lr) (some reg) (some z) (some a) (some c) = some w ∧
      w ^ 2 ≤ (1 + (9 / 4 + 2 * lr) * u) * ((1 - lr * reg) * c - lr * z * a) ^ 2 +
        11 / 10 * (lr * u) * (50 * a ^ 2 + 32 * c ^ 2) + 20 * η := by
  have hu1 := P.u_le
  have hη1 := P.η_le
  have hη0 := P.η_nonneg
  have hu0 := P.u_nonneg
  have hΩ := P.Ω_large
  have hE := P.E_nonneg
  set g := |a| with hg
  have hg0 : 0 ≤ g := abs_nonneg _
  have hgE : g ≤ (1 + E) / 2 := by
    have h1 : |a| ≤ (1 + a ^ 2) / 2 := by rw [← sq_abs a]; nlinarith [sq_nonneg (|a| - 1)]
    have := sq_nonneg c
    linarith
  have hcE : |c| ≤ (1 + E) / 2 := by
    have h1 : |c| ≤ (1 + c ^ 2) / 2 := by rw [← sq_abs c]; nlinarith [sq_nonneg (|c| - 1)]
    have := sq_nonneg a
    linarith
  have hug : u * g ≤ 1 / 2000 * g := mul_le_mul_of_nonneg_right hu1 hg0
  have hug0 : 0 ≤ u * g := mul_nonneg hu0 hg0
  have huug : u * (u * g) ≤ 1 / 2000 * (u * g) := mul_le_mul_of_nonneg_right hu1 hug0
  have hηg : η * g ≤ u / 100 * g := mul_le_mul_of_nonneg_right hη1 hg0
  have huηg : u * (η * g) ≤ 1 / 2000 * (η * g) := mul_le_mul_of_nonneg_right hu1 (mul_nonneg hη0 hg0)
  obtain ⟨y, ey, ny⟩ := negz_near hu hη hr P z0 z1
  have hx2 : |y * a - -z * a| ≤ u * g + η * g := by
    rw [← sub_mul, abs_mul, ← hg]
    have := mul_le_mul_of_nonneg_right ny hg0
    linarith
  have hy2 : |-z * a| ≤ g := by
    rw [abs_mul, abs_neg, abs_of_nonneg z0]
    exact mul_le_of_le_one_left hg0 z1
  obtain ⟨γ, eγ, nγ⟩ := limit_near hu hη (Ω := Ω) hx2 hy2 (by linarith)
  obtain ⟨w, ew, nw⟩ := step_near (w := c) (γ := γ) (γ₀ := -z * a) (g := g) (Ω := Ω) hu hη hu0 (by linarith) hη0 (by linarith)
    P.lr_nonneg P.lr_le P.reg_nonneg P.reg_le (by linarith) hy2 (by linarith)
  refine ⟨w, ?_, ?_⟩
  · unfold FloatOps.bprDisliked
    rw [ey]
    have h2 : (limitOps r Ω).mul (some y) (some a) = some γ := eγ
    rw [h2]
    exact ew
  · have := square_near hu0 (by linarith) hη0 hη1 P.lr_nonneg P.lr_le nw hg0
    rw [hg, sq_abs] at this
    rw [show (1 - lr * reg) * c - lr * z * a = c + lr * (-z * a - reg * c) by ring]
    exact this

theorem liked_bias_near {z b : ℝ} (z0 : 0 ≤ z) (z1 : z ≤ 1) (hb : b ^ 2 ≤ E) :
    ∃ w, (limitOps r Ω).bprLikedBias (some lr) (some reg) (some z) (some b) = some w ∧
      w ^ 2 ≤ (1 + (9 / 4 + 2 * lr) * u) * ((1 - lr * reg) * b + lr * z) ^ 2 +
        11 / 10 * (lr * u) * (50 * 1 ^ 2 + 32 * b ^ 2) + 20 * η := by
  have hu1 := P.u_le
  have hη1 := P.η_le
  have hη0 := P.η_nonneg
  have hu0 := P.u_nonneg
  have hΩ := P.Ω_large
  have hE := P.E_nonneg
  have hbE : |b| ≤ (1 + E) / 2 := by
    have h1 : |b| ≤ (1 + b ^ 2) / 2 := by rw [← sq_abs b]; nlinarith [sq_nonneg (|b| - 1)]
    linarith
  obtain ⟨w, ew, nw⟩ := step_near (w := b) (γ := z) (γ₀ := z) (g := 1) (Ω := Ω) hu hη hu0 (by linarith) hη0 (by linarith)
    P.lr_nonneg P.lr_le P.reg_nonneg P.reg_le (by rw [sub_self, abs_zero]; linarith) (by rw [abs_of_nonneg z0]; exact z1) (by linarith)
  refine ⟨w, ew, ?_⟩
  have := square_near hu0 (by linarith) hη0 hη1 P.lr_nonneg P.lr_le nw zero_le_one
  rw [show (1 - lr * reg) * b + lr * z = b + lr * (z - reg * b) by ring]
  exact this

theorem disliked_bias_near {z c : ℝ} (z0 : 0 ≤ z) (z1 : z ≤ 1) (hc : c ^ 2 ≤ E) :
    ∃ w, (limitOps r Ω).bprDislikedBias (some lr) (some reg) (some z) (some c) = some w ∧
      w ^ 2 ≤ (1 + (9 / 4 + 2 * lr) * u) * ((1 - lr * reg) * c - lr * z) ^ 2 +
        11 / 10 * (lr * u) * (50 * 1 ^ 2 + 32 * c ^ 2) + 20 * η := by
  have hu1 := P.u_le
  have hη1 := P.η_le
  have hη0 := P.η_nonneg
  have hu0 := P.u_nonneg
  have hΩ := P.Ω_large
  have hE := P.E_nonneg
  have hcE : |c| ≤ (1 + E) / 2 := by
    have h1 : |c| ≤ (1 + c ^ 2) / 2 := by rw [← sq_abs c]; nlinarith [sq_nonneg (|c| - 1)]
    linarith
  obtain ⟨y, ey, ny⟩ := negz_near hu hη hr P z0 z1
  obtain ⟨w, ew, nw⟩ := step_near (w := c) (γ := y) (γ₀ := -z) (g := 1) (Ω := Ω) hu hη hu0 (by linarith) hη0 (by linarith)
    P.lr_nonneg P.lr_le P.reg_nonneg P.reg_le (by linarith) (by rw [abs_neg, abs_of_nonneg z0]; exact z1) (by linarith)
  refine ⟨w, ?_, ?_⟩
  · unfold FloatOps.bprDislikedBias
    rw [ey]
    exact ew
  · have := square_near hu0 (by linarith) hη0 hη1 P.lr_nonneg P.lr_le nw zero_le_one
    rw [show (1 - lr * reg) * c - lr * z = c + lr * (-z - reg * c) by ring]
    exact this

end

end Implicit
