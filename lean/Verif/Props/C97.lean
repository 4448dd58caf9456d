import Verif.Lemmas.FloatBpr
import Verif.Lemmas.RoundMetrics
import Verif.Model.Overflow
import Verif.Props.C94
import Verif.Props.C96
/-!
# C97: BPR training in floating point stays in range
-/

set_option linter.unusedSectionVars false

namespace Implicit

open Spec

/-! ## Single operations -/

section
variable {r : Rounding ℝ} {u η Ω : ℝ} (hu : r.u ≤ u) (hη : r.η ≤ η)
include hu hη

theorem rnd_near {x X : ℝ} (hx : |x| ≤ X) : |r.rnd x - x| ≤ u * X + η := by
  have h1 := r.err x
  have h3 : r.u * |x| ≤ u * X := mul_le_mul hu hx (abs_nonneg _) (r.u_nonneg.trans hu)
  linarith

/-- One rounded operation whose exact operands would give `y`. -/
theorem limit_near {x y e X : ℝ} (hxy : |x - y| ≤ e) (hy : |y| ≤ X) (hΩ : (X + e) * (1 + u) + η ≤ Ω) :
    ∃ z, limit r Ω x = some z ∧ |z - y| ≤ e + u * (X + e) + η := by
  have hx : |x| ≤ X + e := by
    have : |x| ≤ |x - y| + |y| := by simpa using abs_add_le (x - y) y
    linarith
  refine ⟨_, limit_eq hu hη hx hΩ, ?_⟩
  have h1 := rnd_near hu hη hx
  have h2 : |r.rnd x - y| ≤ |r.rnd x - x| + |x - y| := abs_sub_le _ _ _
  linarith

/-- The step of a factor `w` with gradient `g₀`, computed as `γ`. -/
theorem step_near {lr reg w γ γ₀ g : ℝ} (hu0 : 0 ≤ u) (hu1 : u ≤ 1 / 1000) (hη0 : 0 ≤ η) (hη1 : η ≤ 1 / 1000)
    (hl0 : 0 ≤ lr) (hl1 : lr ≤ 1) (hr0 : 0 ≤ reg) (hr1 : reg ≤ 1) (hγ : |γ - γ₀| ≤ 21 / 10 * u * g + 3 * η) (hg : |γ₀| ≤ g)
    (hΩ : 4 * (|w| + g + 1) ≤ Ω) :
    ∃ w', (limitOps r Ω).add (some w) ((limitOps r Ω).mul (some lr)
        ((limitOps r Ω).sub (some γ) ((limitOps r Ω).mul (some reg) (some w)))) = some w' ∧
      |w' - (w + lr * (γ₀ - reg * w))| ≤ u * |w + lr * (γ₀ - reg * w)| + lr * u * (5 * g + 4 * |w|) + 8 * η := by
  have hg0 : 0 ≤ g := (abs_nonneg _).trans hg
  have hw0 := abs_nonneg w
  have hug : u * g ≤ 1 / 1000 * g := mul_le_mul_of_nonneg_right hu1 hg0
  have huw : u * |w| ≤ 1 / 1000 * |w| := mul_le_mul_of_nonneg_right hu1 hw0
  have hug0 : 0 ≤ u * g := mul_nonneg hu0 hg0
  have huw0 : 0 ≤ u * |w| := mul_nonneg hu0 hw0
  have huη : u * η ≤ 1 / 1000 * η := mul_le_mul_of_nonneg_right hu1 hη0
  have huη0 : 0 ≤ u * η := mul_nonneg hu0 hη0
  have huug : u * (u * g) ≤ 1 / 1000 * (u * g) := mul_le_mul_of_nonneg_right hu1 hug0
  have huuw : u * (u * |w|) ≤ 1 / 1000 * (u * |w|) := mul_le_mul_of_nonneg_right hu1 huw0
  have huug0 : 0 ≤ u * (u * g) := mul_nonneg hu0 hug0
  have huuw0 : 0 ≤ u * (u * |w|) := mul_nonneg hu0 huw0
  have huuη : u * (u * η) ≤ 1 / 1000 * (u * η) := mul_le_mul_of_nonneg_right hu1 huη0
  -- `reg * w`
  have hrw : |reg * w| ≤ |w| := by
    rw [abs_mul, abs_of_nonneg hr0]
    exact mul_le_of_le_one_left hw0 hr1
  obtain ⟨t1, e1, n1⟩ := limit_near (x := reg * w) (y := reg * w) (e := 0) (X := |w|) hu hη (Ω := Ω) (by simp) hrw (by linarith)
  -- the difference
  have hx2 : |(γ - t1) - (γ₀ - reg * w)| ≤ 21 / 10 * (u * g) + u * |w| + 4 * η := by
    have : (γ - t1) - (γ₀ - reg * w) = (γ - γ₀) - (t1 - reg * w) := by ring
    rw [this]
    have := abs_sub (γ - γ₀) (t1 - reg * w)
    linarith
  have hy2 : |γ₀ - reg * w| ≤ g + |w| := (abs_sub _ _).trans (add_le_add hg hrw)
  obtain ⟨t2, e2, n2⟩ := limit_near hu hη (Ω := Ω) hx2 hy2 (by linarith)
  have n2' : |t2 - (γ₀ - reg * w)| ≤ 32 / 10 * (u * g) + 21 / 10 * (u * |w|) + 51 / 10 * η := by
    refine n2.trans ?_
    linarith
  -- the step
  have hx3 : |lr * t2 - lr * (γ₀ - reg * w)| ≤ lr * (32 / 10 * (u * g) + 21 / 10 * (u * |w|) + 51 / 10 * η) := by
    rw [← mul_sub, abs_mul, abs_of_nonneg hl0]
    exact mul_le_mul_of_nonneg_left n2' hl0
  have hy3 : |lr * (γ₀ - reg * w)| ≤ lr * (g + |w|) := by
    rw [abs_mul, abs_of_nonneg hl0]
    exact mul_le_mul_of_nonneg_left hy2 hl0
  have hlA : lr * (g + |w|) ≤ g + |w| := mul_le_of_le_one_left (by linarith) hl1
  have hlB : lr * (32 / 10 * (u * g) + 21 / 10 * (u * |w|) + 51 / 10 * η) ≤ 32 / 10 * (u * g) + 21 / 10 * (u * |w|) + 51 / 10 * η :=
    mul_le_of_le_one_left (by linarith) hl1
  have hlA0 : 0 ≤ lr * (g + |w|) := mul_nonneg hl0 (by linarith)
  have hlB0 : 0 ≤ lr * (32 / 10 * (u * g) + 21 / 10 * (u * |w|) + 51 / 10 * η) := mul_nonneg hl0 (by linarith)
  have hlη : lr * η ≤ η := mul_le_of_le_one_left hη0 hl1
  have hlη0 : 0 ≤ lr * η := mul_nonneg hl0 hη0
  have hug' : 0 ≤ lr * (u * g) := mul_nonneg hl0 hug0
  have huw' : 0 ≤ lr * (u * |w|) := mul_nonneg hl0 huw0
  have hs1 : u * (lr * (u * g)) ≤ 1 / 1000 * (lr * (u * g)) := mul_le_mul_of_nonneg_right hu1 hug'
  have hs2 : u * (lr * (u * |w|)) ≤ 1 / 1000 * (lr * (u * |w|)) := mul_le_mul_of_nonneg_right hu1 huw'
  have hs3 : u * (lr * η) ≤ 1 / 1000 * (lr * η) := mul_le_mul_of_nonneg_right hu1 hlη0
  have hlg : lr * (u * g) ≤ u * g := mul_le_of_le_one_left hug0 hl1
  have hlw : lr * (u * |w|) ≤ u * |w| := mul_le_of_le_one_left huw0 hl1
  obtain ⟨t3, e3, n3⟩ := limit_near hu hη (Ω := Ω) hx3 hy3 (by linarith)
  have n3' : |t3 - lr * (γ₀ - reg * w)| ≤ 43 / 10 * (lr * (u * g)) + 32 / 10 * (lr * (u * |w|)) + 62 / 10 * η := by
    refine n3.trans ?_
    have : u * (lr * (g + |w|) + lr * (32 / 10 * (u * g) + 21 / 10 * (u * |w|) + 51 / 10 * η)) =
        lr * (u * g) + lr * (u * |w|) + 32 / 10 * (u * (lr * (u * g))) + 21 / 10 * (u * (lr * (u * |w|))) + 51 / 10 * (u * (lr * η)) := by
      ring
    rw [this]
    linarith
  -- the sum
  set x := w + lr * (γ₀ - reg * w) with hx
  have hx4 : |(w + t3) - x| ≤ 43 / 10 * (lr * (u * g)) + 32 / 10 * (lr * (u * |w|)) + 62 / 10 * η := by
    rw [hx, add_sub_add_left_eq_sub]
    exact n3'
  have hxs : |x| ≤ |w| + (g + |w|) := by
    refine (abs_add_le _ _).trans ?_
    linarith
  obtain ⟨w', e4, n4⟩ := limit_near hu hη (Ω := Ω) hx4 le_rfl (by
    have : u * |x| ≤ 1 / 1000 * |x| := mul_le_mul_of_nonneg_right hu1 (abs_nonneg _)
    linarith)
  refine ⟨w', ?_, n4.trans ?_⟩
  · have h1 : (limitOps r Ω).mul (some reg) (some w) = some t1 := e1
    rw [h1]
    have h2 : (limitOps r Ω).sub (some γ) (some t1) = some t2 := e2
    rw [h2]
    have h3 : (limitOps r Ω).mul (some lr) (some t2) = some t3 := e3
    rw [h3]
    exact e4
  · have : u * (|x| + (43 / 10 * (lr * (u * g)) + 32 / 10 * (lr * (u * |w|)) + 62 / 10 * η)) =
        u * |x| + 43 / 10 * (u * (lr * (u * g))) + 32 / 10 * (u * (lr * (u * |w|))) + 62 / 10 * (u * η) := by ring
    rw [this]
    have : lr * u * (5 * g + 4 * |w|) = 5 * (lr * (u * g)) + 4 * (lr * (u * |w|)) := by ring
    rw [this]
    linarith

end

/-- The square of a computed factor. -/
theorem square_near {u η lr w w' x g : ℝ} (hu0 : 0 ≤ u) (hu1 : u ≤ 1 / 1000) (hη0 : 0 ≤ η) (hη1 : η ≤ u / 100)
    (hl0 : 0 ≤ lr) (hl1 : lr ≤ 1) (h : |w' - x| ≤ u * |x| + lr * u * (5 * g + 4 * |w|) + 8 * η) (hg : 0 ≤ g) :
    w' ^ 2 ≤ (1 + (9 / 4 + 2 * lr) * u) * x ^ 2 + 11 / 10 * (lr * u) * (50 * g ^ 2 + 32 * w ^ 2) + 20 * η := by
  have hw := abs_nonneg w
  set y := 5 * g + 4 * |w| with hy
  have hy0 : 0 ≤ y := by positivity
  have hy2 : y ^ 2 ≤ 50 * g ^ 2 + 32 * w ^ 2 := by
    rw [← sq_abs w, hy]
    nlinarith [sq_nonneg (5 * g - 4 * |w|)]
  set X := |x| with hX
  have hX0 : 0 ≤ X := abs_nonneg x
  have hX2 : X ^ 2 = x ^ 2 := sq_abs x
  have hlu : 0 ≤ lr * u := mul_nonneg hl0 hu0
  have hlu1 : lr * u ≤ 1 / 1000 := by nlinarith
  have h1 : |w'| ≤ (1 + u) * X + (lr * u * y + 8 * η) := by
    have : |w'| ≤ |w' - x| + |x| := by simpa using abs_add_le (w' - x) x
    linarith
  have h2 : w' ^ 2 ≤ ((1 + u) * X + (lr * u * y + 8 * η)) ^ 2 := by
    rw [← sq_abs w']
    exact pow_le_pow_left₀ (abs_nonneg _) h1 2
  refine h2.trans ?_
  rw [← hX2]
  set δ := lr * u * y + 8 * η with hδ
  have hδ0 : 0 ≤ δ := by positivity
  have e1 : 2 * X * δ ≤ lr * u * (X ^ 2 + y ^ 2) + 8 * η * (X ^ 2 + 1) := by
    have a1 : 2 * X * y ≤ X ^ 2 + y ^ 2 := by nlinarith [sq_nonneg (X - y)]
    have a2 : 2 * X ≤ X ^ 2 + 1 := by nlinarith [sq_nonneg (X - 1)]
    have b1 := mul_le_mul_of_nonneg_left a1 hlu
    have b2 := mul_le_mul_of_nonneg_left a2 (show 0 ≤ 8 * η by linarith)
    rw [hδ]
    linarith
  have e2 : δ ^ 2 ≤ 2 * (lr * u) * (1 / 1000) * y ^ 2 + 128 * η ^ 2 := by
    have a1 : δ ^ 2 ≤ 2 * (lr * u * y) ^ 2 + 2 * (8 * η) ^ 2 := by
      rw [hδ]
      nlinarith [sq_nonneg (lr * u * y - 8 * η)]
    have a2 : (lr * u) * (lr * u) ≤ (lr * u) * (1 / 1000) := mul_le_mul_of_nonneg_left hlu1 hlu
    have a3 := mul_le_mul_of_nonneg_right a2 (sq_nonneg y)
    linarith
  have e3 : η ^ 2 ≤ η / 1000 := by nlinarith
  have e4 : (1 + u) * (2 * X * δ) ≤ (1 + u) * (lr * u * (X ^ 2 + y ^ 2) + 8 * η * (X ^ 2 + 1)) :=
    mul_le_mul_of_nonneg_left e1 (by linarith)
  have e5 : (1 + u) * (lr * u * (X ^ 2 + y ^ 2)) ≤ (1001 / 1000) * (lr * u * (X ^ 2 + y ^ 2)) :=
    mul_le_mul_of_nonneg_right (by linarith) (by positivity)
  have e6 : (1 + u) * (8 * η * (X ^ 2 + 1)) ≤ (1001 / 1000) * (8 * η * (X ^ 2 + 1)) :=
    mul_le_mul_of_nonneg_right (by linarith) (by positivity)
  have e7 : η * X ^ 2 ≤ u / 100 * X ^ 2 := mul_le_mul_of_nonneg_right hη1 (sq_nonneg X)
  have e8 : u ^ 2 * X ^ 2 ≤ 1 / 1000 * u * X ^ 2 := mul_le_mul_of_nonneg_right (by nlinarith) (sq_nonneg X)
  have e9 : (11 / 10 * (lr * u)) * y ^ 2 ≤ (11 / 10 * (lr * u)) * (50 * g ^ 2 + 32 * w ^ 2) :=
    mul_le_mul_of_nonneg_left hy2 (by positivity)
  have z1 : 0 ≤ lr * u * X ^ 2 := by positivity
  have z2 : 0 ≤ u * X ^ 2 := by positivity
  have z3 : 0 ≤ lr * u * y ^ 2 := by positivity
  linarith [show ((1 + u) * X + δ) ^ 2 = X ^ 2 + 2 * (u * X ^ 2) + u ^ 2 * X ^ 2 + (1 + u) * (2 * X * δ) + δ ^ 2 by ring]

/-! ## The score -/

section
variable {r : Rounding ℝ} {u η Ω : ℝ} (hu : r.u ≤ u) (hη : r.η ≤ η)
include hu hη

theorem score_near {t : BprTriple} {m : BprCell → Option ℝ} {a b c : Nat → ℝ} {N : Nat} {H B : ℝ}
    (ha : ∀ j < N, m (.user t.user j) = some (a j)) (hb : ∀ j < N, m (.item t.liked j) = some (b j))
    (hc : ∀ j < N, m (.item t.disliked j) = some (c j)) (hu0 : 0 ≤ u) (hη0 : 0 ≤ η) (hN : u * (N + 1) ≤ 1 / 1000)
    (hH : ∀ j < N, η * (2 * |a j| + 2) ≤ H) (hH0 : 2 * η ≤ H) (hHN : 4 * (N + 1) * H ≤ 1)
    (hB : ∑ j ∈ Finset.range N, |a j| * |b j - c j| ≤ B) (hd : ∀ j < N, |b j - c j| ≤ B + 1) (hΩ : 4 * (B + 1) ≤ Ω) :
    ∀ n ≤ N, ∃ s, (limitOps r Ω).bprScore t m n (some 0) = some s ∧
      |s - ∑ j ∈ Finset.range n, a j * (b j - c j)| ≤
        2 * u * (n + 1) * ∑ j ∈ Finset.range n, |a j| * |b j - c j| + 4 * n * H
  | 0, _ => ⟨0, rfl, by simp⟩
  | n + 1, hn => by
    obtain ⟨s, hs, es⟩ := score_near ha hb hc hu0 hη0 hN hH hH0 hHN hB hd hΩ n (by omega)
    have hnN : n < N := by omega
    set W := ∑ j ∈ Finset.range n, |a j| * |b j - c j| with hW
    set S := ∑ j ∈ Finset.range n, a j * (b j - c j) with hS
    set δ := |b n - c n| with hδ
    set α := |a n| with hα
    have hδ0 : 0 ≤ δ := abs_nonneg _
    have hα0 : 0 ≤ α := abs_nonneg _
    have hw0 : 0 ≤ α * δ := mul_nonneg hα0 hδ0
    have hW0 : 0 ≤ W := Finset.sum_nonneg fun j _ => mul_nonneg (abs_nonneg _) (abs_nonneg _)
    have hWB : W + α * δ ≤ B := by
      have : W + α * δ = ∑ j ∈ Finset.range (n + 1), |a j| * |b j - c j| := by rw [Finset.sum_range_succ]
      rw [this]
      refine le_trans (Finset.sum_le_sum_of_subset_of_nonneg ?_ fun j _ _ => mul_nonneg (abs_nonneg _) (abs_nonneg _)) hB
      exact Finset.range_mono (by omega)
    have hSW : |S| ≤ W := by
      refine (Finset.abs_sum_le_sum_abs _ _).trans (le_of_eq ?_)
      exact Finset.sum_congr rfl fun j _ => abs_mul _ _
    have hN' : (n : ℝ) + 1 ≤ N := by exact_mod_cast hn
    have hn0 : (0 : ℝ) ≤ n := by positivity
    have hu1 : u * (n + 1) ≤ 1 / 1000 := (mul_le_mul_of_nonneg_left (by linarith) hu0).trans hN
    have hu2 : u ≤ 1 / 1000 := by
      have := mul_nonneg hu0 hn0
      linarith
    have hHn := hH n hnN
    have hHp : 0 ≤ H := by linarith
    have hnH : 4 * n * H ≤ 1 := by
      have := mul_le_mul_of_nonneg_right hN' hHp
      linarith
    have hnH0 : 0 ≤ 4 * n * H := by positivity
    have hH1 : H ≤ 1 := by
      have := mul_le_mul_of_nonneg_right hN' hHp
      linarith
    have hηα : 0 ≤ η * α := mul_nonneg hη0 hα0
    have huη : u * (η * α) ≤ 1 / 1000 * (η * α) := mul_le_mul_of_nonneg_right hu2 hηα
    have huη' : u * η ≤ 1 / 1000 * η := mul_le_mul_of_nonneg_right hu2 hη0
    have huw : u * (α * δ) ≤ 1 / 1000 * (α * δ) := mul_le_mul_of_nonneg_right hu2 hw0
    have huw0 : 0 ≤ u * (α * δ) := mul_nonneg hu0 hw0
    have huuw : u * (u * (α * δ)) ≤ 1 / 1000 * (u * (α * δ)) := mul_le_mul_of_nonneg_right hu2 huw0
    have huH : u * H ≤ 1 / 1000 * H := mul_le_mul_of_nonneg_right hu2 hHp
    have huW : u * W ≤ 1 / 1000 * W := mul_le_mul_of_nonneg_right hu2 hW0
    have huW0 : 0 ≤ u * W := mul_nonneg hu0 hW0
    have huδ : u * δ ≤ 1 / 1000 * δ := mul_le_mul_of_nonneg_right hu2 hδ0
    -- the difference
    obtain ⟨d, ed, nd⟩ := limit_near (x := b n - c n) (y := b n - c n) (e := 0) (X := δ) hu hη (Ω := Ω) (by simp) le_rfl
      (by have := hd n hnN; rw [← hδ] at this; linarith)
    -- the product
    have hx2 : |a n * d - a n * (b n - c n)| ≤ u * (α * δ) + η * α := by
      rw [← mul_sub, abs_mul]
      have := mul_le_mul_of_nonneg_left nd hα0
      linarith
    have hy2 : |a n * (b n - c n)| ≤ α * δ := le_of_eq (abs_mul _ _)
    obtain ⟨p, ep, np⟩ := limit_near hu hη (Ω := Ω) hx2 hy2 (by linarith)
    have np' : |p - a n * (b n - c n)| ≤ 21 / 10 * (u * (α * δ)) + H := by
      refine np.trans ?_
      linarith
    -- the sum
    have hx3 : |(s + p) - (S + a n * (b n - c n))| ≤ 2 * u * (n + 1) * W + 4 * n * H + (21 / 10 * (u * (α * δ)) + H) := by
      have : (s + p) - (S + a n * (b n - c n)) = (s - S) + (p - a n * (b n - c n)) := by ring
      rw [this]
      exact (abs_add_le _ _).trans (add_le_add es np')
    have hy3 : |S + a n * (b n - c n)| ≤ W + α * δ := (abs_add_le _ _).trans (add_le_add hSW hy2)
    have hE1 : 2 * u * (n + 1) * W ≤ 2 / 1000 * W := by
      have := mul_le_mul_of_nonneg_right hu1 hW0
      linarith
    have hE0 : 0 ≤ 2 * u * (n + 1) * W := by positivity
    have hE2 : u * (2 * u * (n + 1) * W) ≤ 2 / 1000 * (u * W) := by
      have := mul_le_mul_of_nonneg_right hu1 huW0
      linarith
    have hE3 : u * (4 * n * H) ≤ 4 / 1000 * H := by
      have := mul_le_mul_of_nonneg_right hu1 hHp
      have := mul_nonneg hu0 hHp
      linarith
    obtain ⟨s', es', ns'⟩ := limit_near hu hη (Ω := Ω) hx3 hy3 (by linarith)
    refine ⟨s', ?_, ?_⟩
    · unfold FloatOps.bprScore at hs ⊢
      rw [List.range_succ, List.foldl_append, hs]
      simp only [List.foldl_cons, List.foldl_nil]
      rw [ha n hnN, hb n hnN, hc n hnN]
      have h1 : (limitOps r Ω).sub (some (b n)) (some (c n)) = some d := ed
      rw [h1]
      have h2 : (limitOps r Ω).mul (some (a n)) (some d) = some p := ep
      rw [h2]
      exact es'
    · rw [Finset.sum_range_succ, Finset.sum_range_succ, ← hW, ← hS]
      refine ns'.trans ?_
      push_cast
      rw [← hδ, ← hα]
      have hnw : 0 ≤ u * (n : ℝ) * (α * δ) := by positivity
      linarith

end

end Implicit
