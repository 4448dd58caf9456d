import Mathlib.Tactic.Positivity
import Mathlib.Tactic.Linarith
import Mathlib.Tactic.Ring
import Mathlib.Tactic.FieldSimp
import Mathlib.Algebra.BigOperators.Fin
import Mathlib.Algebra.Order.BigOperators.Group.List
import Verif.Model.Rounding

set_option linter.unusedSectionVars false

namespace Implicit

namespace SumTree

variable {R : Type} [Field R] [LinearOrder R] [IsStrictOrderedRing R] {f : Nat}

/-- The exact sum. -/
def exact (x y : Vec f R) (t : SumTree f) : R := (t.leaves.map fun i => x i * y i).sum

/-- The sum of the absolute values of the products. -/
def mass (x y : Vec f R) (t : SumTree f) : R := (t.leaves.map fun i => |x i * y i|).sum

theorem mass_nonneg (x y : Vec f R) (t : SumTree f) : 0 ≤ t.mass x y := by
  apply List.sum_nonneg
  intro a ha
  rw [List.mem_map] at ha
  obtain ⟨i, -, rfl⟩ := ha
  exact abs_nonneg _

theorem abs_exact_le (x y : Vec f R) (t : SumTree f) : |t.exact x y| ≤ t.mass x y := by
  unfold exact mass
  induction t.leaves with
  | nil => simp
  | cons i l ih =>
    rw [List.map_cons, List.map_cons, List.sum_cons, List.sum_cons]
    exact (abs_add_le _ _).trans (add_le_add le_rfl ih)

/-- One rounding after an error. -/
theorem round_step (r : Rounding R) {c s A N G : R} (hE : |c - s| ≤ (G - 1) * A + N * G * r.η) (hs : |s| ≤ A) (hG : 1 ≤ G)
    (hN : 0 ≤ N) :
    |r.rnd c - s| ≤ (G * (1 + r.u) - 1) * A + (N + 1) * (G * (1 + r.u)) * r.η := by
  have hu := r.u_nonneg
  have hη := r.η_nonneg
  have h1 : |r.rnd c - s| ≤ |r.rnd c - c| + |c - s| := by
    have : r.rnd c - s = (r.rnd c - c) + (c - s) := by ring
    rw [this]
    exact abs_add_le _ _
  have h2 : |c| ≤ |c - s| + |s| := by
    have : c = (c - s) + s := by ring
    calc |c| = |(c - s) + s| := by rw [← this]
      _ ≤ _ := abs_add_le _ _
  have h3 := r.err c
  have h4 : r.u * |c| ≤ r.u * (((G - 1) * A + N * G * r.η) + A) := by
    apply mul_le_mul_of_nonneg_left _ hu
    linarith
  have h5 : r.η ≤ (G * (1 + r.u)) * r.η := by
    have : 1 ≤ G * (1 + r.u) := by nlinarith
    nlinarith
  calc |r.rnd c - s| ≤ r.u * (((G - 1) * A + N * G * r.η) + A) + r.η + ((G - 1) * A + N * G * r.η) := by linarith
    _ = (G * (1 + r.u) - 1) * A + N * (G * (1 + r.u)) * r.η + r.η := by ring
    _ ≤ _ := by linarith

theorem leaves_pos (t : SumTree f) : 0 < t.leaves.length := by
  cases t with
  | leaf i => simp [leaves]
  | add l r => simp [leaves]; left; exact leaves_pos l
  | fma i t => simp [leaves]

/-- The error of a sum of `m` products, whatever the order. -/
theorem eval_error (r : Rounding R) (x y : Vec f R) (t : SumTree f) :
    |t.eval r x y - t.exact x y| ≤ ((1 + r.u) ^ t.leaves.length - 1) * t.mass x y +
      (2 * t.leaves.length - 1 : R) * (1 + r.u) ^ t.leaves.length * r.η := by
  have hu := r.u_nonneg
  have hη := r.η_nonneg
  have h1u : 1 ≤ 1 + r.u := by linarith
  have weaken : ∀ {c s A : R} {N : R} {m m' : Nat}, |c - s| ≤ ((1 + r.u) ^ m - 1) * A + N * (1 + r.u) ^ m * r.η → m ≤ m' → 0 ≤ A →
      0 ≤ N → |c - s| ≤ ((1 + r.u) ^ m' - 1) * A + N * (1 + r.u) ^ m' * r.η := by
    intro c s A N m m' h hm hA hN
    have hp : (1 + r.u) ^ m ≤ (1 + r.u) ^ m' := pow_le_pow_right₀ h1u hm
    have e1 : ((1 + r.u) ^ m - 1) * A ≤ ((1 + r.u) ^ m' - 1) * A := mul_le_mul_of_nonneg_right (by linarith) hA
    have e2 : N * (1 + r.u) ^ m * r.η ≤ N * (1 + r.u) ^ m' * r.η :=
      mul_le_mul_of_nonneg_right (mul_le_mul_of_nonneg_left hp hN) hη
    linarith
  induction t with
  | leaf i =>
    have := round_step r (c := x i * y i) (s := x i * y i) (A := |x i * y i|) (N := 0) (G := 1) (by simp) le_rfl le_rfl le_rfl
    have e1 : (leaf i : SumTree f).exact x y = x i * y i := by simp [exact, leaves]
    have e2 : (leaf i : SumTree f).mass x y = |x i * y i| := by simp only [mass, leaves, List.map_cons, List.map_nil, List.sum_cons, List.sum_nil, add_zero]
    rw [e1, e2]
    refine this.trans (le_of_eq ?_)
    simp only [leaves, List.length_singleton, pow_one]
    push_cast
    ring
  | add l r' ihl ihr =>
    have hl := l.leaves_pos
    have hr := r'.leaves_pos
    have hlR : (1 : R) ≤ l.leaves.length := by exact_mod_cast hl
    have hrR : (1 : R) ≤ r'.leaves.length := by exact_mod_cast hr
    have eE : (add l r').exact x y = l.exact x y + r'.exact x y := by simp [exact, leaves]
    have eM : (add l r').mass x y = l.mass x y + r'.mass x y := by simp [mass, leaves]
    have eL : (add l r').leaves.length = l.leaves.length + r'.leaves.length := by simp [leaves]
    obtain ⟨m, hm⟩ : ∃ m, l.leaves.length + r'.leaves.length = m + 1 := ⟨l.leaves.length + r'.leaves.length - 1, by omega⟩
    have wl := weaken ihl (m' := m) (by omega) (l.mass_nonneg x y) (by linarith)
    have wr := weaken ihr (m' := m) (by omega) (r'.mass_nonneg x y) (by linarith)
    have hG : 1 ≤ (1 + r.u) ^ m := one_le_pow₀ h1u
    have hmR : (l.leaves.length : R) + r'.leaves.length = m + 1 := by exact_mod_cast hm
    have hsum : |(l.eval r x y + r'.eval r x y) - (l.exact x y + r'.exact x y)| ≤
        ((1 + r.u) ^ m - 1) * (l.mass x y + r'.mass x y) + (2 * (m : R)) * (1 + r.u) ^ m * r.η := by
      have e : (l.eval r x y + r'.eval r x y) - (l.exact x y + r'.exact x y) =
        (l.eval r x y - l.exact x y) + (r'.eval r x y - r'.exact x y) := by ring
      rw [e]
      refine (abs_add_le _ _).trans ((add_le_add wl wr).trans (le_of_eq ?_))
      have : (2 * (m : R)) = (2 * l.leaves.length - 1) + (2 * r'.leaves.length - 1) := by linarith
      rw [this]
      ring
    have hs : |l.exact x y + r'.exact x y| ≤ l.mass x y + r'.mass x y :=
      (abs_add_le _ _).trans (add_le_add (abs_exact_le x y l) (abs_exact_le x y r'))
    have := round_step r hsum hs hG (by positivity)
    rw [eE, eM, eL, hm, pow_succ]
    refine this.trans (le_of_eq ?_)
    push_cast
    ring
  | fma i t ih =>
    have ht := t.leaves_pos
    have htR : (1 : R) ≤ t.leaves.length := by exact_mod_cast ht
    have eE : (fma i t).exact x y = x i * y i + t.exact x y := by simp [exact, leaves]
    have eM : (fma i t).mass x y = |x i * y i| + t.mass x y := by simp [mass, leaves]
    have eL : (fma i t).leaves.length = t.leaves.length + 1 := by simp [leaves]
    have hG : 1 ≤ (1 + r.u) ^ t.leaves.length := one_le_pow₀ h1u
    have hsum : |(x i * y i + t.eval r x y) - (x i * y i + t.exact x y)| ≤
        ((1 + r.u) ^ t.leaves.length - 1) * (|x i * y i| + t.mass x y) +
          (2 * (t.leaves.length : R) - 1) * (1 + r.u) ^ t.leaves.length * r.η := by
      have e : (x i * y i + t.eval r x y) - (x i * y i + t.exact x y) = t.eval r x y - t.exact x y := by ring
      rw [e]
      have : 0 ≤ ((1 + r.u) ^ t.leaves.length - 1) * |x i * y i| := mul_nonneg (by linarith) (abs_nonneg _)
      nlinarith
    have hs : |x i * y i + t.exact x y| ≤ |x i * y i| + t.mass x y :=
      (abs_add_le _ _).trans (add_le_add le_rfl (abs_exact_le x y t))
    have := round_step r hsum hs hG (by linarith)
    rw [eE, eM, eL, pow_succ]
    refine this.trans ?_
    have h2 : (2 * (t.leaves.length : R) - 1 + 1) ≤ 2 * ((t.leaves.length + 1 : Nat) : R) - 1 := by
      push_cast
      linarith
    have h3 : 0 ≤ (1 + r.u) ^ t.leaves.length * (1 + r.u) * r.η := by positivity
    nlinarith

theorem exact_complete {t : SumTree f} (ht : t.Complete) (x y : Vec f R) : t.exact x y = ∑ i, x i * y i := by
  unfold exact
  rw [(ht.map _).sum_eq, Fin.sum_univ_def]

theorem mass_complete {t : SumTree f} (ht : t.Complete) (x y : Vec f R) : t.mass x y = ∑ i, |x i * y i| := by
  unfold mass
  rw [(ht.map _).sum_eq, Fin.sum_univ_def]

theorem length_complete {t : SumTree f} (ht : t.Complete) : t.leaves.length = f := by
  rw [ht.length_eq, List.length_finRange]

end SumTree

/-! ## An instance -/

section
variable {R : Type} [Field R] [LinearOrder R] [IsStrictOrderedRing R] [FloorRing R]

theorem ulp_pos (p : Nat) (emin : Int) (x : R) : 0 < ulp p emin x := by
  unfold ulp
  positivity

theorem roundBits_err (p : Nat) (emin : Int) (x : R) :
    |roundBits p emin x - x| ≤ 2 ^ (-(p : Int)) * |x| + 2 ^ (emin - 1) := by
  have hpos := ulp_pos p emin x
  have h1 : |roundBits p emin x - x| ≤ ulp p emin x / 2 := by
    have e : roundBits p emin x - x = -((x / ulp p emin x - round (x / ulp p emin x)) * ulp p emin x) := by
      unfold roundBits
      rw [sub_mul, div_mul_cancel₀ _ hpos.ne']
      ring
    rw [e, abs_neg, abs_mul, abs_of_pos hpos]
    have := abs_sub_round (x / ulp p emin x)
    nlinarith
  rcases eq_or_ne x 0 with rfl | hx
  · have : roundBits p emin (0 : R) = 0 := by
      unfold roundBits
      simp
    rw [this]
    simp only [sub_self, abs_zero, mul_zero, zero_add]
    positivity
  · refine h1.trans ?_
    have hx' : 0 < |x| := abs_pos.mpr hx
    have hlog : (2 : R) ^ Int.log 2 |x| ≤ |x| := by
      have := Int.zpow_log_le_self (b := 2) (by norm_num) hx'
      exact_mod_cast this
    have e1 : (2 : R) ^ (Int.log 2 |x| - p + 1) / 2 = 2 ^ (-(p : Int)) * 2 ^ Int.log 2 |x| := by
      rw [← zpow_add₀ (by norm_num), zpow_add₀ (by norm_num), zpow_one]
      rw [mul_div_assoc, div_self (by norm_num), mul_one]
      congr 1
      ring
    have e2 : (2 : R) ^ emin / 2 = 2 ^ (emin - 1) := by
      rw [zpow_sub₀ (by norm_num), zpow_one]
    have h0 : (0 : R) ≤ 2 ^ (-(p : Int)) * |x| := by positivity
    have h0' : (0 : R) ≤ 2 ^ (emin - 1) := by positivity
    unfold ulp
    rcases max_cases (Int.log 2 |x| - p + 1) emin with ⟨h, -⟩ | ⟨h, -⟩
    · rw [h, e1]
      have : (2 : R) ^ (-(p : Int)) * 2 ^ Int.log 2 |x| ≤ 2 ^ (-(p : Int)) * |x| :=
        mul_le_mul_of_nonneg_left hlog (by positivity)
      linarith
    · rw [h, e2]
      linarith

/-- Binary floating point with `p` significant bits and smallest positive number `2^emin`: `float32` is `p = 24`,
`emin = -149`, `float64` is `p = 53`, `emin = -1074`. -/
def binaryFloat (p : Nat) (emin : Int) : Rounding R where
  rnd := roundBits p emin
  u := 2 ^ (-(p : Int))
  η := 2 ^ (emin - 1)
  u_nonneg := by positivity
  η_nonneg := by positivity
  err := roundBits_err p emin

/-- Out of the subnormal range there is no smallest exponent to notice. -/
theorem roundBits_eq (p : Nat) (emin : Int) (x : R) (h : x = 0 ∨ 2 ^ (emin + p - 1) ≤ |x|) : roundBits p emin x = roundFree p x := by
  rcases h with rfl | h
  · unfold roundBits roundFree
    simp
  · have hx : 0 < |x| := lt_of_lt_of_le (by positivity) h
    have h1 : emin + p - 1 ≤ Int.log 2 |x| := by
      rw [← Int.zpow_le_iff_le_log (by norm_num) hx]
      exact_mod_cast h
    unfold roundBits roundFree ulp
    rw [max_eq_left (by omega)]

/-- Underflow. -/
theorem roundBits_small (p : Nat) (emin : Int) (x : R) (h : |x| < 2 ^ (emin - 1)) : roundBits p emin x = 0 := by
  have hpos := ulp_pos p emin x
  have h1 : (2 : R) ^ emin ≤ ulp p emin x := by
    unfold ulp
    exact zpow_le_zpow_right₀ (by norm_num) (le_max_right _ _)
  have h2 : |x| < ulp p emin x / 2 := by
    rw [zpow_sub₀ (by norm_num), zpow_one] at h
    linarith
  have h3 : round (x / ulp p emin x) = 0 := by
    rw [round_eq_zero_iff]
    have h4 := abs_lt.mp h2
    constructor
    · rw [le_div_iff₀ hpos]; linarith [h4.1]
    · rw [div_lt_iff₀ hpos]; linarith [h4.2]
  unfold roundBits
  rw [h3]
  simp

theorem roundFree_err (p : Nat) (x : R) : |roundFree p x - x| ≤ 2 ^ (-(p : Int)) * |x| + 0 := by
  rcases eq_or_ne x 0 with rfl | hx
  · unfold roundFree
    simp
  · have hx' : 0 < |x| := abs_pos.mpr hx
    have hlog : (2 : R) ^ Int.log 2 |x| ≤ |x| := by
      have := Int.zpow_log_le_self (b := 2) (by norm_num) hx'
      exact_mod_cast this
    have hpos : (0 : R) < 2 ^ (Int.log 2 |x| - p + 1) := by positivity
    obtain ⟨w, hw⟩ : ∃ w : R, w = 2 ^ (Int.log 2 |x| - p + 1) := ⟨_, rfl⟩
    have e1 : w / 2 = 2 ^ (-(p : Int)) * 2 ^ Int.log 2 |x| := by
      rw [hw, ← zpow_add₀ (by norm_num), zpow_add₀ (by norm_num), zpow_one]
      rw [mul_div_assoc, div_self (by norm_num), mul_one]
      congr 1
      ring
    rw [← hw] at hpos
    have e : roundFree p x - x = -((x / w - round (x / w)) * w) := by
      unfold roundFree
      rw [← hw, sub_mul, div_mul_cancel₀ _ hpos.ne']
      ring
    rw [e, abs_neg, abs_mul, abs_of_pos hpos]
    have h1 := abs_sub_round (x / w)
    have h2 : (2 : R) ^ (-(p : Int)) * 2 ^ Int.log 2 |x| ≤ 2 ^ (-(p : Int)) * |x| :=
      mul_le_mul_of_nonneg_left hlog (by positivity)
    nlinarith

/-- Binary floating point with `p` significant bits where no underflow occurs (`roundBits_eq`). -/
def freeFloat (p : Nat) : Rounding R where
  rnd := roundFree p
  u := 2 ^ (-(p : Int))
  η := 0
  u_nonneg := by positivity
  η_nonneg := le_rfl
  err := roundFree_err p
end

/-- A quotient of two approximations. -/
theorem quotient_step {p P A a n F g : ℝ} (hp : |p - P| ≤ (F - 1) * A) (hP : |P| ≤ A) (hn : 0 < n) (ha : |a - n| ≤ (g - 1) * n)
    (hg : g < 2) (hF : 1 ≤ F) (hg1 : 1 ≤ g) :
    |p / a - P / n| ≤ (F / (2 - g) - 1) * (A / n) ∧ |P / n| ≤ A / n ∧ 1 ≤ F / (2 - g) := by
  have hA : 0 ≤ A := (abs_nonneg _).trans hP
  have h2g : 0 < 2 - g := by linarith
  have ha1 := abs_le.mp ha
  have hapos : (2 - g) * n ≤ a := by linarith [ha1.1]
  have ha0 : 0 < a := lt_of_lt_of_le (by positivity) hapos
  refine ⟨?_, ?_, ?_⟩
  · have e : p / a - P / n = ((p - P) * n - P * (a - n)) / (a * n) := by
      field_simp
      ring
    rw [e, abs_div, abs_of_pos (mul_pos ha0 hn)]
    have h1 : |(p - P) * n - P * (a - n)| ≤ (F + g - 2) * A * n := by
      calc |(p - P) * n - P * (a - n)| ≤ |(p - P) * n| + |P * (a - n)| := abs_sub _ _
        _ = |p - P| * n + |P| * |a - n| := by rw [abs_mul, abs_mul, abs_of_pos hn]
        _ ≤ (F - 1) * A * n + A * ((g - 1) * n) := by
          apply add_le_add (mul_le_mul_of_nonneg_right hp hn.le)
          exact mul_le_mul hP ha (abs_nonneg _) hA
        _ = _ := by ring
    have h2 : (2 - g) * n * n ≤ a * n := mul_le_mul_of_nonneg_right hapos hn.le
    have h3 : 0 ≤ (F + g - 2) * A * n := by
      have : 0 ≤ F + g - 2 := by linarith
      positivity
    calc |(p - P) * n - P * (a - n)| / (a * n) ≤ ((F + g - 2) * A * n) / ((2 - g) * n * n) :=
          div_le_div₀ h3 h1 (by positivity) h2
      _ = (F / (2 - g) - 1) * (A / n) := by
        field_simp
        ring
  · rw [abs_div, abs_of_pos hn]
    exact div_le_div_of_nonneg_right hP hn.le
  · rw [le_div_iff₀ h2g]
    linarith

/-- Rounding without subnormal numbers. -/
theorem round_step_zero (r : Rounding ℝ) (h0 : r.η = 0) {c s A F : ℝ} (hE : |c - s| ≤ (F - 1) * A) (hs : |s| ≤ A) (hF : 1 ≤ F) :
    |r.rnd c - s| ≤ (F * (1 + r.u) - 1) * A := by
  have := SumTree.round_step r (N := 0) (G := F) (by simpa [h0] using hE) hs hF le_rfl
  simpa [h0] using this

theorem rnd_zero (r : Rounding ℝ) (h0 : r.η = 0) : r.rnd 0 = 0 := by
  have := r.err 0
  rw [h0] at this
  simpa using this

end Implicit
