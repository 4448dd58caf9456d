import Verif.Props.C97Fit
/-!
# C97: BPR training in floating point stays in range — one sample
-/

set_option linter.unusedSectionVars false

namespace Implicit

open Spec

/-- The energy of the three rows of a sample, without the biases. -/
def tripleSum (a b c : Nat → ℝ) (factors : Nat) : ℝ := ∑ j ∈ Finset.range factors, (a j ^ 2 + b j ^ 2 + c j ^ 2)

theorem tripleSum_nonneg (a b c : Nat → ℝ) (factors : Nat) : 0 ≤ tripleSum a b c factors :=
  Finset.sum_nonneg fun j _ => by positivity

theorem tripleSum_single (a b c : Nat → ℝ) {factors j : Nat} (hj : j < factors) :
    a j ^ 2 + b j ^ 2 + c j ^ 2 ≤ tripleSum a b c factors :=
  Finset.single_le_sum (f := fun j => a j ^ 2 + b j ^ 2 + c j ^ 2) (fun j _ => by positivity) (Finset.mem_range.mpr hj)

theorem abs_prod_le (a b c : ℝ) : |a| * |b - c| ≤ 3 / 4 * (a ^ 2 + b ^ 2 + c ^ 2) := by
  rw [← sq_abs a]
  have h1 : |b - c| ^ 2 ≤ 2 * (b ^ 2 + c ^ 2) := by rw [sq_abs]; nlinarith [sq_nonneg (b + c)]
  nlinarith [sq_nonneg (3 * |a| - 2 * |b - c|), abs_nonneg a, abs_nonneg (b - c)]

theorem abs_diff_le (b c : ℝ) : |b - c| ≤ 3 / 4 * (2 * b ^ 2 + 2 * c ^ 2 + 1) := by
  have h := abs_prod_le 1 b c
  rw [abs_one, one_mul] at h
  have := sq_nonneg b
  have := sq_nonneg c
  linarith

theorem weight_le (a b c : Nat → ℝ) (factors : Nat) (h1 : a factors = 1) :
    ∑ j ∈ Finset.range (factors + 1), |a j| * |b j - c j| ≤
      3 / 4 * (tripleSum a b c factors + 2 * b factors ^ 2 + 2 * c factors ^ 2 + 1) := by
  rw [Finset.sum_range_succ, h1, abs_one, one_mul]
  have h2 : ∑ j ∈ Finset.range factors, |a j| * |b j - c j| ≤ 3 / 4 * tripleSum a b c factors := by
    unfold tripleSum
    rw [Finset.mul_sum]
    exact Finset.sum_le_sum fun j _ => abs_prod_le _ _ _
  have := abs_diff_le (b factors) (c factors)
  linarith

theorem abs_le_half (a : ℝ) : |a| ≤ (1 + a ^ 2) / 2 := by
  rw [← sq_abs a]
  nlinarith [sq_nonneg (|a| - 1)]

/-- The coordinates of the three rows, summed up. -/
theorem rows_sum {u η Ω lr reg E : ℝ} {factors : Nat} (P : BprRange u η Ω lr reg factors E) {a b c a' b' c' : Nat → ℝ} {y : ℝ} (h1 : a factors = 1)
    (k1 : ∀ j < factors, a' j ^ 2 ≤ (1 + (9 / 4 + 2 * lr) * u) * ((1 - lr * reg) * a j + lr * y * (b j - c j)) ^ 2 +
      11 / 10 * (lr * u) * (50 * (b j - c j) ^ 2 + 32 * a j ^ 2) + 20 * η)
    (k2 : ∀ j < factors, b' j ^ 2 ≤ (1 + (9 / 4 + 2 * lr) * u) * ((1 - lr * reg) * b j + lr * y * a j) ^ 2 +
      11 / 10 * (lr * u) * (50 * a j ^ 2 + 32 * b j ^ 2) + 20 * η)
    (k3 : ∀ j < factors, c' j ^ 2 ≤ (1 + (9 / 4 + 2 * lr) * u) * ((1 - lr * reg) * c j - lr * y * a j) ^ 2 +
      11 / 10 * (lr * u) * (50 * a j ^ 2 + 32 * c j ^ 2) + 20 * η) :
    tripleSum a' b' c' factors ≤ (1 + (9 / 4 + 2 * lr) * u) * (((1 - lr * reg) ^ 2 + 2 * (lr * y) ^ 2) * tripleSum a b c factors +
      4 * (1 - lr * reg) * (lr * y) * (∑ j ∈ Finset.range (factors + 1), a j * (b j - c j) - (b factors - c factors))) +
      11 / 10 * (lr * u) * (132 * tripleSum a b c factors) + 60 * factors * η := by
  have hC0 : 0 ≤ 1 + (9 / 4 + 2 * lr) * u := by
    have := mul_nonneg (show 0 ≤ 9 / 4 + 2 * lr by linarith [P.lr_nonneg]) P.u_nonneg
    linarith
  have hlu : 0 ≤ lr * u := mul_nonneg P.lr_nonneg P.u_nonneg
  have hsum : tripleSum a' b' c' factors ≤ ∑ j ∈ Finset.range factors,
      ((1 + (9 / 4 + 2 * lr) * u) * (((1 - lr * reg) ^ 2 + 2 * (lr * y) ^ 2) * (a j ^ 2 + b j ^ 2 + c j ^ 2) +
        4 * (1 - lr * reg) * (lr * y) * (a j * (b j - c j))) + (11 / 10 * (lr * u) * (132 * (a j ^ 2 + b j ^ 2 + c j ^ 2)) + 60 * η)) := by
    refine Finset.sum_le_sum fun j hj => ?_
    have hj := Finset.mem_range.mp hj
    have n1 := k1 j hj
    have n2 := k2 j hj
    have n3 := k3 j hj
    generalize a j = x at *
    generalize b j = v at *
    generalize c j = w at *
    have n4 := mul_le_mul_of_nonneg_left (coord_distinct (1 - lr * reg) (lr * y) x v w) hC0
    have n5 : 11 / 10 * (lr * u) * (50 * (v - w) ^ 2 + 32 * x ^ 2 + (50 * x ^ 2 + 32 * v ^ 2) + (50 * x ^ 2 + 32 * w ^ 2)) ≤
        11 / 10 * (lr * u) * (132 * (x ^ 2 + v ^ 2 + w ^ 2)) :=
      mul_le_mul_of_nonneg_left (by nlinarith [sq_nonneg (v + w)]) (by positivity)
    generalize (1 - lr * reg) * x + lr * y * (v - w) = X1 at *
    generalize (1 - lr * reg) * v + lr * y * x = X2 at *
    generalize (1 - lr * reg) * w - lr * y * x = X3 at *
    generalize ((1 - lr * reg) ^ 2 + 2 * (lr * y) ^ 2) * (x ^ 2 + v ^ 2 + w ^ 2) + 4 * (1 - lr * reg) * (lr * y) * (x * (v - w)) = Z at *
    generalize 1 + (9 / 4 + 2 * lr) * u = C at *
    generalize lr * u = κ at *
    linarith
  refine hsum.trans (le_of_eq ?_)
  have hS' : ∑ j ∈ Finset.range factors, a j * (b j - c j) =
      ∑ j ∈ Finset.range (factors + 1), a j * (b j - c j) - (b factors - c factors) := by
    rw [Finset.sum_range_succ, h1]
    ring
  rw [← hS']
  unfold tripleSum
  rw [Finset.sum_add_distrib, ← Finset.mul_sum, Finset.sum_add_distrib, Finset.sum_add_distrib, ← Finset.mul_sum, ← Finset.mul_sum,
    ← Finset.mul_sum, ← Finset.mul_sum, Finset.sum_const, Finset.card_range, nsmul_eq_mul]
  ring

section
variable {r : Rounding ℝ} {u η Ω lr reg E : ℝ} {factors : Nat} (hu : r.u ≤ u) (hη : r.η ≤ η) (hr : r.Orderly 2)
  (P : BprRange u η Ω lr reg factors E)
include hu hη hr P

/-- The computed score of a sample. -/
theorem float_score {t : BprTriple} {m : BprCell → Option ℝ} {a b c : Nat → ℝ}
    (ha : ∀ j ≤ factors, m (.user t.user j) = some (a j)) (hb : ∀ j ≤ factors, m (.item t.liked j) = some (b j))
    (hc : ∀ j ≤ factors, m (.item t.disliked j) = some (c j)) (h1 : a factors = 1)
    (hE : tripleSum a b c factors + 2 * b factors ^ 2 + 2 * c factors ^ 2 ≤ E) :
    ∃ s, (limitOps r Ω).bprScore t m (factors + 1) (some 0) = some s ∧ |s| ≤ E + 1 ∧
      |s - ∑ j ∈ Finset.range (factors + 1), a j * (b j - c j)| ≤
        2 * u * (factors + 2) * ∑ j ∈ Finset.range (factors + 1), |a j| * |b j - c j| + u := by
  have hu0 := P.u_nonneg
  have hη0 := P.η_nonneg
  have hE0 := P.E_nonneg
  have hη1 := P.η_small
  have hv := P.u_small
  have hΩ := P.Ω_large
  have hu1 := P.u_le
  have hf : (0 : ℝ) ≤ factors := by positivity
  have hT0 := tripleSum_nonneg a b c factors
  have hW := weight_le a b c factors h1
  set W := ∑ j ∈ Finset.range (factors + 1), |a j| * |b j - c j| with hWdef
  set T := tripleSum a b c factors with hTdef
  have hW0 : 0 ≤ W := Finset.sum_nonneg fun j _ => mul_nonneg (abs_nonneg _) (abs_nonneg _)
  have hbf : 0 ≤ b factors ^ 2 := sq_nonneg _
  have hcf : 0 ≤ c factors ^ 2 := sq_nonneg _
  have hηE : 0 ≤ η * (E + 1) := mul_nonneg hη0 (by linarith)
  have hηE2 : 0 ≤ factors * (η * (E + 1)) := mul_nonneg hf hηE
  have key : ∀ j < factors + 1, a j ^ 2 ≤ E + 1 ∧ b j ^ 2 + c j ^ 2 ≤ E := fun j hj => by
    rcases Nat.lt_succ_iff_lt_or_eq.mp hj with hj | rfl
    · have := tripleSum_single a b c hj
      have := sq_nonneg (a j)
      have := sq_nonneg (b j)
      have := sq_nonneg (c j)
      constructor <;> linarith
    · rw [h1]
      constructor <;> linarith
  have hηEη : η ≤ η * (E + 1) := by
    have := mul_nonneg hη0 hE0
    linarith
  obtain ⟨s, es, ns⟩ := score_near (t := t) (m := m) (a := a) (b := b) (c := c) (N := factors + 1) (H := 4 * (η * (E + 1)))
    (B := 3 / 4 * (E + 1)) (Ω := Ω) hu hη (fun j hj => ha j (by omega)) (fun j hj => hb j (by omega)) (fun j hj => hc j (by omega))
    hu0 hη0 (by push_cast; linarith)
    (fun j hj => by
      have h2 := abs_le_half (a j)
      have h3 := (key j hj).1
      have : η * (2 * |a j| + 2) ≤ η * (4 * (E + 1)) := mul_le_mul_of_nonneg_left (by linarith) hη0
      linarith)
    (by linarith) (by push_cast; linarith) (by linarith)
    (fun j hj => by
      have h3 := (key j hj).2
      have h4 := abs_sub (b j) (c j)
      have h5 := abs_le_half (b j)
      have h6 := abs_le_half (c j)
      linarith)
    (by linarith) (factors + 1) le_rfl
  have ns' : |s - ∑ j ∈ Finset.range (factors + 1), a j * (b j - c j)| ≤ 2 * u * (factors + 2) * W + u := by
    refine ns.trans ?_
    push_cast
    rw [show (factors : ℝ) + 1 + 1 = factors + 2 by ring]
    linarith
  refine ⟨s, es, ?_, ns'⟩
  have hSW : |∑ j ∈ Finset.range (factors + 1), a j * (b j - c j)| ≤ W := by
    refine (Finset.abs_sum_le_sum_abs _ _).trans (le_of_eq ?_)
    exact Finset.sum_congr rfl fun j _ => abs_mul _ _
  have h2 := abs_sub_abs_le_abs_sub s (∑ j ∈ Finset.range (factors + 1), a j * (b j - c j))
  have h3 := mul_le_mul_of_nonneg_right hv hW0
  linarith

/-- The three rows of a sample after the update. -/
theorem float_rows {sig : Option ℝ → Option ℝ} (hsig : GoodSig sig (E + 1)) {t : BprTriple} {m m' : BprCell → Option ℝ} {a b c : Nat → ℝ}
    (ha : ∀ j ≤ factors, m (.user t.user j) = some (a j)) (hb : ∀ j ≤ factors, m (.item t.liked j) = some (b j))
    (hc : ∀ j ≤ factors, m (.item t.disliked j) = some (c j)) (h1 : a factors = 1)
    (hE : tripleSum a b c factors + 2 * b factors ^ 2 + 2 * c factors ^ 2 ≤ E) {z : Option ℝ}
    (hz : z = sig ((limitOps r Ω).bprScore t m (factors + 1) (limitOps r Ω).zero))
    (e1 : ∀ j, j < factors → m' (.user t.user j) =
      (limitOps r Ω).bprUser (some lr) (some reg) z (m (.user t.user j)) (m (.item t.liked j)) (m (.item t.disliked j)))
    (e2 : ∀ j, j < factors → m' (.item t.liked j) = (limitOps r Ω).bprLiked (some lr) (some reg) z (m (.user t.user j)) (m (.item t.liked j)))
    (e3 : ∀ j, j < factors → m' (.item t.disliked j) =
      (limitOps r Ω).bprDisliked (some lr) (some reg) z (m (.user t.user j)) (m (.item t.disliked j)))
    (e4 : m' (.item t.liked factors) = (limitOps r Ω).bprLikedBias (some lr) (some reg) z (m (.item t.liked factors)))
    (e5 : m' (.item t.disliked factors) = (limitOps r Ω).bprDislikedBias (some lr) (some reg) z (m (.item t.disliked factors))) :
    ∃ a' b' c' : Nat → ℝ, (∀ j < factors, m' (.user t.user j) = some (a' j)) ∧ (∀ j ≤ factors, m' (.item t.liked j) = some (b' j)) ∧
      (∀ j ≤ factors, m' (.item t.disliked j) = some (c' j)) ∧
      tripleSum a' b' c' factors + 2 * b' factors ^ 2 + 2 * c' factors ^ 2 ≤
        floatGrowth u lr reg factors * (tripleSum a b c factors + 2 * b factors ^ 2 + 2 * c factors ^ 2) + floatGain u lr := by
  obtain ⟨s, es, hs, ns⟩ := float_score hu hη hr P ha hb hc h1 hE
  have hW := weight_le a b c factors h1
  set W := ∑ j ∈ Finset.range (factors + 1), |a j| * |b j - c j| with hWdef
  set S := ∑ j ∈ Finset.range (factors + 1), a j * (b j - c j) with hSdef
  have hW0 : 0 ≤ W := Finset.sum_nonneg fun j _ => mul_nonneg (abs_nonneg _) (abs_nonneg _)
  obtain ⟨y, hy, y0, y1, ys⟩ := hsig s hs
  have hzy : z = some y := by
    rw [hz, show (limitOps r Ω).zero = some 0 from rfl, es, hy]
  have hT0 := tripleSum_nonneg a b c factors
  have hbf : 0 ≤ b factors ^ 2 := sq_nonneg _
  have hcf : 0 ≤ c factors ^ 2 := sq_nonneg _
  have hj3 : ∀ j < factors, a j ^ 2 + b j ^ 2 + c j ^ 2 ≤ E := fun j hj => by
    have := tripleSum_single a b c hj
    linarith
  have k1 : ∀ j, ∃ w, j < factors → m' (.user t.user j) = some w ∧
      w ^ 2 ≤ (1 + (9 / 4 + 2 * lr) * u) * ((1 - lr * reg) * a j + lr * y * (b j - c j)) ^ 2 +
        11 / 10 * (lr * u) * (50 * (b j - c j) ^ 2 + 32 * a j ^ 2) + 20 * η := fun j => by
    by_cases hj : j < factors
    · obtain ⟨w, hw, h⟩ := user_near hu hη hr P y0 y1 (hj3 j hj)
      exact ⟨w, fun _ => ⟨by rw [e1 j hj, hzy, ha j hj.le, hb j hj.le, hc j hj.le, hw], h⟩⟩
    · exact ⟨0, fun h => absurd h hj⟩
  have k2 : ∀ j, ∃ w, j < factors → m' (.item t.liked j) = some w ∧
      w ^ 2 ≤ (1 + (9 / 4 + 2 * lr) * u) * ((1 - lr * reg) * b j + lr * y * a j) ^ 2 +
        11 / 10 * (lr * u) * (50 * a j ^ 2 + 32 * b j ^ 2) + 20 * η := fun j => by
    by_cases hj : j < factors
    · obtain ⟨w, hw, h⟩ := liked_near hu hη hr P (a := a j) (b := b j) y0 y1 (by have := hj3 j hj; have := sq_nonneg (c j); linarith)
      exact ⟨w, fun _ => ⟨by rw [e2 j hj, hzy, ha j hj.le, hb j hj.le, hw], h⟩⟩
    · exact ⟨0, fun h => absurd h hj⟩
  have k3 : ∀ j, ∃ w, j < factors → m' (.item t.disliked j) = some w ∧
      w ^ 2 ≤ (1 + (9 / 4 + 2 * lr) * u) * ((1 - lr * reg) * c j - lr * y * a j) ^ 2 +
        11 / 10 * (lr * u) * (50 * a j ^ 2 + 32 * c j ^ 2) + 20 * η := fun j => by
    by_cases hj : j < factors
    · obtain ⟨w, hw, h⟩ := disliked_near hu hη hr P (a := a j) (c := c j) y0 y1 (by have := hj3 j hj; have := sq_nonneg (b j); linarith)
      exact ⟨w, fun _ => ⟨by rw [e3 j hj, hzy, ha j hj.le, hc j hj.le, hw], h⟩⟩
    · exact ⟨0, fun h => absurd h hj⟩
  obtain ⟨bb, hbb, nb⟩ := liked_bias_near hu hη hr P (b := b factors) y0 y1 (by linarith)
  obtain ⟨cc, hcc, nc⟩ := disliked_bias_near hu hη hr P (c := c factors) y0 y1 (by linarith)
  choose a' ha' using k1
  choose b' hb' using k2
  choose c' hc' using k3
  have q0 : 0 ≤ lr * y := mul_nonneg P.lr_nonneg y0
  have q1 : lr * y ≤ lr := mul_le_of_le_one_right P.lr_nonneg y1
  have hqs : lr * y * S ≤ lr / 2 + lr * (2 * u * (factors + 2) * W + u) := by
    have h2 : y * S ≤ 1 / 2 + (2 * u * (factors + 2) * W + u) := by
      have h3 : y * (S - s) ≤ 2 * u * (factors + 2) * W + u := by
        refine (le_abs_self _).trans ?_
        rw [abs_mul, abs_of_nonneg y0, abs_sub_comm]
        exact (mul_le_of_le_one_left (abs_nonneg _) y1).trans ns
      linarith
    have := mul_le_mul_of_nonneg_left h2 P.lr_nonneg
    linarith
  refine ⟨a', fun j => if j = factors then bb else b' j, fun j => if j = factors then cc else c' j, fun j hj => (ha' j hj).1,
    fun j hj => ?_, fun j hj => ?_, ?_⟩
  · by_cases h : j = factors
    · simp only [h, if_true]
      rw [e4, hzy, hb factors le_rfl, hbb]
    · simp only [h, if_false]
      exact (hb' j (by omega)).1
  · by_cases h : j = factors
    · simp only [h, if_true]
      rw [e5, hzy, hc factors le_rfl, hcc]
    · simp only [h, if_false]
      exact (hc' j (by omega)).1
  · have hT' : tripleSum a' (fun j => if j = factors then bb else b' j) (fun j => if j = factors then cc else c' j) factors =
        tripleSum a' b' c' factors := by
      refine Finset.sum_congr rfl fun j hj => ?_
      have : j ≠ factors := (Finset.mem_range.mp hj).ne
      simp [this]
    rw [hT']
    simp only [if_true]
    refine sample_arith P (h := lr / 2 + lr * (2 * u * (factors + 2) * W + u)) (W := W) q0 q1 hqs rfl hW0 hT0 hW ?_ nb nc
    exact rows_sum P h1 (fun j hj => (ha' j hj).2) (fun j hj => (hb' j hj).2) fun j hj => (hc' j hj).2

end

end Implicit
