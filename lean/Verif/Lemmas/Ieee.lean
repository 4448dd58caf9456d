import Verif.Props.C83
import Verif.Lemmas.RoundMetrics
/-!
# IEEE 754 arithmetic is monotone, and exact on multiples of powers of two
-/

set_option linter.unusedSectionVars false

namespace Implicit

variable {R : Type} [Field R] [LinearOrder R] [IsStrictOrderedRing R] [FloorRing R]

theorem roundEven_floor (x : R) : ⌊x⌋ ≤ roundEven x ∧ roundEven x ≤ ⌊x⌋ + 1 := by
  unfold roundEven
  split_ifs <;> omega

theorem roundEven_mono : Monotone (roundEven : R → Int) := by
  intro x y hxy
  rcases (Int.floor_mono hxy).lt_or_eq with h | h
  · have h1 := (roundEven_floor x).2
    have h2 := (roundEven_floor y).1
    omega
  · have hfr : x - ⌊x⌋ ≤ y - ⌊y⌋ := by rw [h]; linarith
    unfold roundEven
    rw [← h]
    rw [← h] at hfr
    split_ifs <;> first | omega | (exfalso; linarith)

theorem roundEven_neg (x : R) : roundEven (-x) = -roundEven x := by
  by_cases hx : (⌊x⌋ : R) = x
  · rw [← hx, ← Int.cast_neg, roundEven_int, roundEven_int]
  · have h1 := Int.floor_le x
    have h2 := Int.lt_floor_add_one x
    have h3 : (⌊x⌋ : R) < x := lt_of_le_of_ne h1 hx
    have hf : ⌊-x⌋ = -⌊x⌋ - 1 := by
      rw [Int.floor_eq_iff]
      push_cast
      constructor <;> linarith
    unfold roundEven
    rw [hf]
    have hc : -x - ((-⌊x⌋ - 1 : Int) : R) = 1 - (x - ⌊x⌋) := by push_cast; ring
    rw [hc]
    split_ifs <;> first | omega | (exfalso; linarith)

theorem ieeeBits_neg (p : Nat) (emin : Int) (x : R) : ieeeBits p emin (-x) = -ieeeBits p emin x := by
  have hu : ulp p emin (-x) = ulp p emin x := by unfold ulp; rw [abs_neg]
  unfold ieeeBits
  rw [hu, neg_div, roundEven_neg]
  push_cast
  ring

theorem ieeeBits_zero (p : Nat) (emin : Int) : ieeeBits p emin (0 : R) = 0 := by
  simp [ieeeBits, roundEven]

/-- A number on the grid of `x` is not passed. -/
theorem ieeeBits_le {p : Nat} {emin : Int} {x z : R} {k : Int} (hz : z = k * ulp p emin x) (h : x ≤ z) : ieeeBits p emin x ≤ z := by
  have hpos := ulp_pos p emin x
  unfold ieeeBits
  rw [hz]
  refine mul_le_mul_of_nonneg_right ?_ hpos.le
  have h1 : x / ulp p emin x ≤ (k : R) := by rw [div_le_iff₀ hpos, ← hz]; exact h
  have h2 := roundEven_mono h1
  rw [roundEven_int] at h2
  exact_mod_cast h2

theorem le_ieeeBits {p : Nat} {emin : Int} {x z : R} {k : Int} (hz : z = k * ulp p emin x) (h : z ≤ x) : z ≤ ieeeBits p emin x := by
  have hpos := ulp_pos p emin x
  unfold ieeeBits
  rw [hz]
  refine mul_le_mul_of_nonneg_right ?_ hpos.le
  have h1 : (k : R) ≤ x / ulp p emin x := by rw [le_div_iff₀ hpos, ← hz]; exact h
  have h2 := roundEven_mono h1
  rw [roundEven_int] at h2
  exact_mod_cast h2

theorem ieeeBits_nonneg {p : Nat} {emin : Int} {x : R} (h : 0 ≤ x) : 0 ≤ ieeeBits p emin x :=
  le_ieeeBits (k := 0) (by simp) h

/-- A power of two on the grid of a smaller one. -/
theorem zpow_grid {a b : Int} (h : a ≤ b) : ∃ k : Int, (2 : R) ^ b = k * 2 ^ a := by
  obtain ⟨n, hn⟩ := Int.eq_ofNat_of_zero_le (show 0 ≤ b - a by omega)
  refine ⟨2 ^ n, ?_⟩
  rw [show b = (n : Int) + a by omega, zpow_add₀ (two_ne_zero), zpow_natCast]
  push_cast
  rfl

theorem ieeeBits_mono_pos {p : Nat} (hp : 1 ≤ p) (emin : Int) {x y : R} (hx : 0 < x) (hxy : x ≤ y) :
    ieeeBits p emin x ≤ ieeeBits p emin y := by
  have hy : 0 < y := hx.trans_le hxy
  have hlog : Int.log 2 |x| ≤ Int.log 2 |y| := by
    rw [abs_of_pos hx, abs_of_pos hy]; exact Int.log_mono_right hx hxy
  by_cases he : max (Int.log 2 |x| - p + 1) emin = max (Int.log 2 |y| - p + 1) emin
  · have hu : ulp p emin x = ulp p emin y := by unfold ulp; rw [he]
    have hpos := ulp_pos p emin y
    unfold ieeeBits
    rw [hu]
    refine mul_le_mul_of_nonneg_right ?_ hpos.le
    exact_mod_cast roundEven_mono (div_le_div_of_nonneg_right hxy hpos.le)
  · have hlt : Int.log 2 |x| < Int.log 2 |y| := by
      rcases hlog.lt_or_eq with h | h
      · exact h
      · exact absurd (by rw [h]) he
    have hyz : (2 : R) ^ Int.log 2 |y| ≤ y := by
      have := Int.zpow_log_le_self (b := 2) (R := R) (by norm_num) (abs_pos.mpr hy.ne')
      rw [abs_of_pos hy] at this ⊢
      simpa using this
    have hxz : x ≤ (2 : R) ^ Int.log 2 |y| := by
      have h1 := Int.lt_zpow_succ_log_self (b := 2) (R := R) (by norm_num) |x|
      have h2 : ((2 : Nat) : R) ^ (Int.log 2 |x| + 1) ≤ ((2 : Nat) : R) ^ Int.log 2 |y| :=
        zpow_le_zpow_right₀ (by norm_num) (by omega)
      rw [abs_of_pos hx] at h1
      rw [abs_of_pos hx] at h2
      refine le_of_lt (lt_of_lt_of_le h1 (by simpa using h2))
    obtain ⟨k, hk⟩ : ∃ k : Int, (2 : R) ^ Int.log 2 |y| = k * ulp p emin x := zpow_grid (by omega)
    obtain ⟨k', hk'⟩ : ∃ k : Int, (2 : R) ^ Int.log 2 |y| = k * ulp p emin y := zpow_grid (by omega)
    exact (ieeeBits_le hk hxz).trans (le_ieeeBits hk' hyz)

/-- IEEE 754 rounding is monotone. -/
theorem ieeeBits_mono {p : Nat} (hp : 1 ≤ p) (emin : Int) : Monotone (ieeeBits p emin : R → R) := by
  intro x y hxy
  rcases lt_or_ge 0 x with hx | hx
  · exact ieeeBits_mono_pos hp emin hx hxy
  · have hx' : ieeeBits p emin x ≤ 0 := by
      have := ieeeBits_nonneg (p := p) (emin := emin) (neg_nonneg.mpr hx)
      rw [ieeeBits_neg] at this
      linarith
    rcases lt_or_ge y 0 with hy | hy
    · have := ieeeBits_mono_pos hp emin (neg_pos.mpr hy) (neg_le_neg hxy)
      rw [ieeeBits_neg, ieeeBits_neg] at this
      linarith
    · exact hx'.trans (ieeeBits_nonneg hy)

/-- Multiples of a power of two are exact. -/
theorem ieeeBits_scaled {p : Nat} (hp : 1 ≤ p) {emin e : Int} (he : emin ≤ e) (k : Int) (hk : k.natAbs ≤ 2 ^ p) :
    ieeeBits p emin ((k : R) * 2 ^ e) = (k : R) * 2 ^ e := by
  by_cases h0 : k = 0
  · subst h0
    simp [ieeeBits_zero]
  have h2e : (0 : R) < 2 ^ e := by positivity
  have hkp : (0 : R) < |(k : R)| := abs_pos.mpr (by exact_mod_cast h0)
  have habs : |(k : R) * 2 ^ e| = |(k : R)| * 2 ^ e := by rw [abs_mul, abs_of_pos h2e]
  have hpos : 0 < |(k : R) * 2 ^ e| := by rw [habs]; positivity
  have hle : |(k : R)| ≤ (2 : R) ^ p := by
    rw [← Int.cast_abs, Int.abs_eq_natAbs]
    exact_mod_cast hk
  rcases hle.lt_or_eq with hlt | heq
  · have hlog : Int.log 2 |(k : R) * 2 ^ e| < p + e := by
      rw [← Int.lt_zpow_iff_log_lt (by norm_num) hpos, habs, zpow_add₀ (by norm_num), zpow_natCast]
      push_cast
      exact mul_lt_mul_of_pos_right hlt h2e
    obtain ⟨c, hc⟩ := zpow_grid (R := R) (a := max (Int.log 2 |(k : R) * 2 ^ e| - p + 1) emin) (b := e) (by omega)
    refine ieeeBits_of_multiple (k := k * c) ?_
    unfold ulp
    conv_lhs => rw [hc]
    push_cast
    ring
  · have hpe : |(k : R) * 2 ^ e| = ((2 : Nat) : R) ^ ((p : Int) + e) := by
      rw [habs, heq, zpow_add₀ (by norm_num), zpow_natCast]
      push_cast
      rfl
    have hlog : Int.log 2 |(k : R) * 2 ^ e| = p + e := by
      rw [hpe]
      exact Int.log_zpow (R := R) (b := 2) (by norm_num) _
    obtain ⟨c, hc⟩ := zpow_grid (R := R) (a := max (Int.log 2 |(k : R) * 2 ^ e| - p + 1) emin) (b := (p : Int) + e) (by omega)
    have hkk : k.natAbs = 2 ^ p := by
      rw [← Int.cast_abs, Int.abs_eq_natAbs] at heq
      exact_mod_cast heq
    have hsign : (k : R) = 2 ^ p ∨ (k : R) = -2 ^ p := by
      rcases Int.natAbs_eq k with h | h
      · left; rw [h, hkk]; push_cast; rfl
      · right; rw [h, hkk]; push_cast; rfl
    have hc' : (2 : R) ^ p * 2 ^ e = c * ulp p emin ((k : R) * 2 ^ e) := by
      unfold ulp
      rw [← hc, zpow_add₀ (by norm_num), zpow_natCast]
    rcases hsign with h | h
    · refine ieeeBits_of_multiple (k := c) ?_
      rw [← hc', h]
    · refine ieeeBits_of_multiple (k := -c) ?_
      push_cast
      rw [neg_mul, ← hc']
      conv_lhs => rw [h]
      ring

/-- A rounded number is a float: rounding it again changes nothing. -/
theorem ieeeBits_idem {p : Nat} (hp : 1 ≤ p) (emin : Int) (x : R) : ieeeBits p emin (ieeeBits p emin x) = ieeeBits p emin x := by
  have hpos := ulp_pos p emin x
  have h : (roundEven (x / ulp p emin x)).natAbs ≤ 2 ^ p := by
    have hb : |x / ulp p emin x| ≤ ((2 ^ p : Nat) : R) := by
      rw [abs_div, abs_of_pos hpos, div_le_iff₀ hpos]
      by_cases hx : x = 0
      · subst hx; rw [abs_zero]; positivity
      have h1 := Int.lt_zpow_succ_log_self (b := 2) (R := R) (by norm_num) |x|
      refine h1.le.trans ?_
      unfold ulp
      push_cast
      rw [← zpow_natCast, ← zpow_add₀ (by norm_num)]
      exact zpow_le_zpow_right₀ (by norm_num) (by omega)
    have h1 := roundEven_mono (abs_le.mp hb).1
    have h2 := roundEven_mono (abs_le.mp hb).2
    rw [show -((2 ^ p : Nat) : R) = ((-((2 ^ p : Nat) : Int) : Int) : R) by push_cast; ring, roundEven_int] at h1
    rw [show ((2 ^ p : Nat) : R) = (((2 ^ p : Nat) : Int) : R) by push_cast; ring, roundEven_int] at h2
    omega
  exact ieeeBits_scaled hp (le_max_right _ _) _ h

theorem ieee_orderly (p : Nat) (hp : 1 ≤ p) (emin : Int) (he : emin ≤ -1) : (ieee p emin : Rounding R).Orderly (2 ^ p) where
  mono := ieeeBits_mono hp emin
  exact := fun k hk => by
    have := ieeeBits_scaled (R := R) hp he k hk
    rw [zpow_neg_one, ← div_eq_mul_inv] at this
    exact this

/-- The `double`s of the native code. -/
theorem double_orderly : (ieee 53 (-1074) : Rounding R).Orderly (2 ^ 53) := ieee_orderly 53 (by norm_num) _ (by norm_num)

end Implicit
