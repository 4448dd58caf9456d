import Verif.Model.RoundInit
import Verif.Props.C100Float
/-!
# C101: initial factors in floating point
-/

namespace Implicit

section
variable {R : Type} [Field R] [LinearOrder R] [IsStrictOrderedRing R]

/-- Rounding to the nearest number of a set that contains 0 and the negatives of its elements. -/
structure Rounding.Even (r : Rounding R) : Prop where
  mono : Monotone r.rnd
  neg : ∀ x, r.rnd (-x) = -r.rnd x
  idem : ∀ x, r.rnd (r.rnd x) = r.rnd x

theorem ieee_even [FloorRing R] {p : Nat} (hp : 1 ≤ p) (emin : Int) : (ieee p emin : Rounding R).Even :=
  ⟨ieeeBits_mono hp emin, ieeeBits_neg p emin, ieeeBits_idem hp emin⟩

theorem Rounding.Even.zero {r : Rounding R} (h : r.Even) : r.rnd 0 = 0 := by
  have := h.neg 0
  rw [neg_zero] at this
  linarith

theorem Rounding.Even.nonneg {r : Rounding R} (h : r.Even) {x : R} (hx : 0 ≤ x) : 0 ≤ r.rnd x := by
  rw [← h.zero]
  exact h.mono hx

theorem Rounding.Even.abs_le {r : Rounding R} (h : r.Even) {x b : R} (hx : |x| ≤ b) : |r.rnd x| ≤ r.rnd b := by
  have hb := _root_.abs_le.mp hx
  rw [_root_.abs_le, ← h.neg]
  exact ⟨h.mono hb.1, h.mono hb.2⟩

/-- **C101** (ALS).  Every initial factor is between 0 and 0.01, the latter as a number of the type of the factors. -/
theorem C101_als {d r : Rounding R} (hd : d.Even) (hr : r.Even) {u : R} (h0 : 0 ≤ u) (h1 : u < 1) :
    0 ≤ roundAlsStart d r u ∧ roundAlsStart d r u ≤ r.rnd (d.rnd (1 / 100)) := by
  have hc : 0 ≤ r.rnd (d.rnd (1 / 100)) := hr.nonneg (hd.nonneg (by norm_num))
  unfold roundAlsStart
  refine ⟨hr.nonneg (mul_nonneg h0 hc), ?_⟩
  rw [← hr.idem (d.rnd (1 / 100))]
  refine hr.mono ?_
  rw [hr.idem]
  nlinarith

/-- **C101** (BPR, CPU and GPU).  Every initial factor is at most `0.5 / factors` in absolute value, computed in the type of the factors. -/
theorem C101_bpr {r : Rounding R} (hr : r.Even) (hhalf : r.rnd (1 / 2) = 1 / 2) (factors : Nat) {u : R} (h0 : 0 ≤ u) (h1 : u < 1) :
    |roundBprStart r factors u| ≤ r.rnd (1 / 2 / r.rnd factors) := by
  have hf : 0 ≤ r.rnd (factors : R) := hr.nonneg (Nat.cast_nonneg _)
  unfold roundBprStart
  refine hr.abs_le ?_
  rw [abs_div, abs_of_nonneg hf]
  refine div_le_div_of_nonneg_right ?_ hf
  have := hr.abs_le (x := u - 1 / 2) (b := 1 / 2) (_root_.abs_le.mpr ⟨by linarith, by linarith⟩)
  rwa [hhalf] at this

/-- **C101** (`RandomState.uniform` on the GPU, symmetric range).  With `low = -high` every number is in `[low, high]`, with and without a fused
multiply-add, for draws from 0 to 1 inclusive. -/
theorem C101_uniform {r : Rounding R} (hr : r.Even) (fused : Bool) {h u : R} (hh : r.rnd h = h) (hh2 : r.rnd (2 * h) = 2 * h) (hpos : 0 ≤ h)
    (h0 : 0 ≤ u) (h1 : u ≤ 1) : |deviceUniform r fused (-h) h u| ≤ h := by
  unfold deviceUniform
  have e : h - -h = 2 * h := by ring
  rw [e, hh2]
  split_ifs with hc hf
  · have := hr.abs_le (x := u * (2 * h) + -h) (b := h) (_root_.abs_le.mpr ⟨by nlinarith, by nlinarith⟩)
    rwa [hh] at this
  · have a0 : 0 ≤ r.rnd (u * (2 * h)) := hr.nonneg (by nlinarith)
    have a1 : r.rnd (u * (2 * h)) ≤ 2 * h := by
      rw [← hh2]
      refine hr.mono ?_
      rw [hh2]
      nlinarith
    have := hr.abs_le (x := r.rnd (u * (2 * h)) + -h) (b := h) (_root_.abs_le.mpr ⟨by linarith, by linarith⟩)
    rwa [hh] at this
  · push Not at hc
    have : h = 0 := by linarith [hc.1]
    rw [this] at hc
    exact absurd hc.2 (by norm_num)

/-- **C101** (ALS on the GPU).  Every initial factor is at most `0.5 / factors` in absolute value, rounded to a double, a float and the type of
the factors in turn — whatever type that is. -/
theorem C101_gpu_als {d r s : Rounding R} (hd : d.Even) (hr : r.Even) (hs : s.Even) (hdouble : ∀ x, r.rnd x = x → r.rnd (2 * x) = 2 * x)
    (fused : Bool) (factors : Nat) {u : R} (h0 : 0 < u) (h1 : u ≤ 1) :
    |roundGpuAlsStart d r s fused factors u| ≤ s.rnd (r.rnd (d.rnd (1 / 2 / factors))) := by
  have hh : 0 ≤ r.rnd (d.rnd (1 / 2 / (factors : R))) := hr.nonneg (hd.nonneg (by positivity))
  unfold roundGpuAlsStart
  refine hs.abs_le ?_
  rw [neg_div, hd.neg, hr.neg]
  exact C101_uniform hr fused (hr.idem _) (hdouble _ (hr.idem _)) hh h0.le h1

end

section
variable {R : Type} [Field R] [LinearOrder R] [IsStrictOrderedRing R] [FloorRing R]

/-- Twice a float is a float (there is no largest one in the model). -/
theorem ieee_double {p : Nat} (hp : 1 ≤ p) (emin : Int) (x : R) (h : (ieee p emin : Rounding R).rnd x = x) :
    (ieee p emin : Rounding R).rnd (2 * x) = 2 * x := by
  change ieeeBits p emin x = x at h
  change ieeeBits p emin (2 * x) = 2 * x
  have hpos := ulp_pos p emin x
  have hb : (roundEven (x / ulp p emin x)).natAbs ≤ 2 ^ p := by
    have hb : |x / ulp p emin x| ≤ ((2 ^ p : Nat) : R) := by
      rw [abs_div, abs_of_pos hpos, div_le_iff₀ hpos]
      by_cases hx : x = 0
      · subst hx; rw [abs_zero]; positivity
      have h1 := Int.lt_zpow_succ_log_self (b := 2) (R := R) (by norm_num) |x|
      refine h1.le.trans ?_
      unfold ulp
      push_cast
      rw [← zpow_natCast, ← zpow_add₀ (by norm_num)]
      exact zpow_le_zpow_right₀ (by norm_num) (by omega)
    have h1 := roundEven_mono (abs_le.mp hb).1
    have h2 := roundEven_mono (abs_le.mp hb).2
    rw [show -((2 ^ p : Nat) : R) = ((-((2 ^ p : Nat) : Int) : Int) : R) by push_cast; ring, roundEven_int] at h1
    rw [show ((2 ^ p : Nat) : R) = (((2 ^ p : Nat) : Int) : R) by push_cast; ring, roundEven_int] at h2
    omega
  have hx : 2 * x = (roundEven (x / ulp p emin x) : R) * 2 ^ (max (Int.log 2 |x| - p + 1) emin + 1) := by
    rw [zpow_add₀ (by norm_num), zpow_one]
    have : x = roundEven (x / ulp p emin x) * ulp p emin x := h.symm
    unfold ulp at this ⊢
    linear_combination 2 * this
  rw [hx]
  exact ieeeBits_scaled hp (by have := le_max_right (Int.log 2 |x| - p + 1) emin; omega) _ hb

/-- **C101** (accuracy).  numpy's draws are multiples of `2^-p` in a type with `p` bits; then `u - 0.5` is exact, and an initial factor of BPR
is the exact one rounded once (twice for numbers of factors that are no floats). -/
theorem C101_bpr_once {p : Nat} (hp : 1 ≤ p) {emin : Int} (he : emin ≤ -(p : Int)) (factors : Nat) (hf : factors ≤ 2 ^ p) (k : Nat) (hk : k < 2 ^ p) :
    roundBprStart (ieee p emin : Rounding R) factors (k / 2 ^ p) = (ieee p emin : Rounding R).rnd ((k / 2 ^ p - 1 / 2) / factors) := by
  have h2 : (2 : R) ^ p = 2 * 2 ^ (p - 1) := by
    obtain ⟨q, rfl⟩ := Nat.exists_eq_add_of_le' hp
    rw [pow_succ, Nat.add_sub_cancel]
    ring
  have hn2 : 2 ^ p = 2 * 2 ^ (p - 1) := by
    obtain ⟨q, rfl⟩ := Nat.exists_eq_add_of_le' hp
    rw [pow_succ, Nat.add_sub_cancel]
    ring
  have e : (k : R) / 2 ^ p - 1 / 2 = (((k : Int) - 2 ^ (p - 1) : Int) : R) * 2 ^ (-(p : Int)) := by
    rw [zpow_neg, zpow_natCast]
    push_cast
    rw [h2]
    field_simp
  have h1 : (ieee p emin : Rounding R).rnd ((k : R) / 2 ^ p - 1 / 2) = (k : R) / 2 ^ p - 1 / 2 := by
    rw [e]
    refine ieeeBits_scaled hp he _ ?_
    have : ((2 : Int) ^ (p - 1)) = ((2 ^ (p - 1) : Nat) : Int) := by push_cast; rfl
    rw [this]
    omega
  have h3 : (ieee p emin : Rounding R).rnd (factors : R) = factors := by
    have := ieeeBits_scaled (R := R) hp (e := 0) (emin := emin) (by omega) (factors : Int) (by simpa using hf)
    change ieeeBits p emin (factors : R) = factors
    simpa using this
  unfold roundBprStart
  rw [h1, h3]

end

/-! ## From scratch to the recommendations -/

open Spec in
/-- **C101** (BPR from the draws to the recommendations).  A new model, IEEE single precision, draws in `[0, 1)`, 1 to 100 factors, up to a million
users and items, one thread, up to 10^8 samples, default rates: training returns, all factors are finite, and `recommend` for every user, with
every filter that leaves `k` items, returns finite scores and is right up to the rounding errors. -/
theorem C101_bpr_recommend {Th : Type} [DecidableEq Th] [Unique Th] [Fintype Th] {items factors : Nat} {Ω Ω' : ℝ} (hΩ : 10 ^ 38 ≤ Ω)
    {ex : ℝ → ℝ} (h0 : ∀ x, 0 ≤ ex x) (h1 : ∀ x, 0 ≤ x → 15 / 16 * Real.exp x ≤ ex x) {lr reg : ℝ}
    (hlr : |lr - 1 / 100| ≤ 1 / 10 ^ 9) (hreg : |reg - 1 / 100| ≤ 1 / 10 ^ 9) (hf0 : 0 < factors) (hf : factors ≤ 100)
    (matrix : List (List Nat)) (hus : matrix.length ≤ 10 ^ 6) (hit : items ≤ 10 ^ 6) (hcols : ∀ u i, Likes matrix u i → i < items)
    (σ : Th → BprScratch (Option ℝ)) (epochs : List (BprEpoch Th)) (he : ∀ e ∈ epochs, e.Valid true (bprRows true matrix) factors)
    (hn : epochs.length * nnz matrix ≤ 10 ^ 8) (half : Option ℝ) (randItem randUser : Nat → Nat → ℝ)
    (hi : ∀ i j, 0 ≤ randItem i j ∧ randItem i j < 1) (hu : ∀ u j, 0 ≤ randUser u j ∧ randUser u j < 1) :
    ∃ m' x', (limitOps (ieee 24 (-149)) Ω).bprFit matrix.length items factors (limitBprSig (ieee 24 (-149)) (ieee 53 (-1074)) Ω Ω' ex) half
        (some lr) (some reg) σ epochs (fun c => some (roundBprInit (ieee 24 (-149)) factors randItem randUser (bprRows true matrix) c)) = .ok m' ∧
      HasValues matrix.length items factors m' x' ∧
      ∀ u < matrix.length, ∀ (order : Fin items → SumTree (factors + 1)) (filter : List (Fin items)) (k : Nat), (∀ j, (order j).Complete) → 1 ≤ k →
        k ≤ ((List.finRange items).filter fun j => j ∉ filter).length →
        ∃ out, extRecommend (ieee 24 (-149)) Ω order filter k (fun j => x' (.user u j)) (fun i j => x' (.item i j)) =
            .ok (out.map fun p => (.fin p.1, p.2)) ∧
          Spec.ApproxTop k (fun j => j ∉ filter) (fun i => ∑ j : Fin (factors + 1), x' (.user u j) * x' (.item i j))
            (fun i => Spec.scoreError (2 ^ (-24 : Int)) (2 ^ (-150 : Int)) (fun j : Fin (factors + 1) => x' (.user u j)) fun j => x' (.item i j))
            out := by
  obtain ⟨s1, s2, s3, s4⟩ := bpr_float_sizes
  obtain ⟨-, -, -, -, h5, h6, -⟩ := float_sizes
  have hr := ieee_even (R := ℝ) (p := 24) (by norm_num) (-149)
  have hF : (ieee 24 (-149) : Rounding ℝ).rnd factors = factors := by
    have := ieeeBits_scaled (R := ℝ) (p := 24) (by norm_num) (e := 0) (emin := -149) (by norm_num) (factors : Int) (by simp; omega)
    change ieeeBits 24 (-149) (factors : ℝ) = factors
    simpa using this
  have hhalf : (ieee 24 (-149) : Rounding ℝ).rnd (1 / 2) = 1 / 2 := by
    have := ieeeBits_scaled (R := ℝ) (p := 24) (by norm_num) (e := -1) (emin := -149) (by norm_num) 1 (by norm_num)
    rw [Int.cast_one, one_mul, zpow_neg_one] at this
    rw [one_div]
    exact this
  have hf1 : (1 : ℝ) ≤ factors := by exact_mod_cast hf0
  have hf2 : (factors : ℝ) ≤ 100 := by exact_mod_cast hf
  have hb : (ieee 24 (-149) : Rounding ℝ).rnd (1 / 2 / factors) ≤ 1 / factors := by
    have e := (abs_le.mp ((ieee 24 (-149) : Rounding ℝ).err (1 / 2 / factors))).2
    have hp : (0 : ℝ) ≤ 1 / 2 / factors := by positivity
    rw [abs_of_nonneg hp] at e
    have e1 : (1 : ℝ) / factors = 2 * (1 / 2 / factors) := by ring
    have e2 : (1 : ℝ) / 200 ≤ 1 / 2 / factors := by
      rw [div_div, div_le_div_iff₀ (by norm_num) (by positivity)]
      linarith
    rw [e1]
    have hη : (ieee 24 (-149) : Rounding ℝ).η ≤ 1 / 1000 := s2.trans (by norm_num)
    have hu' : (ieee 24 (-149) : Rounding ℝ).u ≤ 1 / 2 := s1.trans (by norm_num)
    nlinarith
  have start : ∀ v : ℝ, 0 ≤ v ∧ v < 1 → |roundBprStart (ieee 24 (-149)) factors v| ≤ 1 / factors := fun v hv => by
    have := C101_bpr hr hhalf factors hv.1 hv.2
    rw [hF] at this
    exact this.trans hb
  have hpos : (0 : ℝ) ≤ 1 / factors := by positivity
  refine C100_bpr (Ω' := Ω') (users := matrix.length) s1 s2 s3 s4 h5 h6 hΩ h0 h1 hlr hreg hf0 hf hus hit matrix le_rfl hcols σ epochs he hn half _
    (roundBprInit (ieee 24 (-149)) factors randItem randUser (bprRows true matrix)) ⟨fun _ _ _ _ => rfl, fun _ _ _ _ => rfl⟩ ?_ ⟨?_, ?_⟩
  · intro u _
    simp [roundBprInit, roundBprUsers]
  · intro u _ j hj
    simp only [roundBprInit, roundBprUsers]
    rw [if_neg hj.ne]
    split_ifs
    · rwa [abs_zero]
    · exact start _ (hu u j)
  · intro i _ j _
    simp only [roundBprInit, roundBprItems]
    split_ifs
    · rwa [abs_zero]
    · exact start _ (hi i j)

/-! ## Other ranges, and examples -/

/-- `RandomState.uniform` leaves other ranges: for `low = -1` and `high = 0.75 * 2^-23`, both floats, the draw 1 gives `2^-23`. -/
theorem C101_uniform_violated :
    let r : Rounding ℚ := ieee 24 (-149)
    let high : ℚ := 3 / 4 * 2 ^ (-23 : Int)
    r.rnd (-1) = -1 ∧ r.rnd high = high ∧ deviceUniform r false (-1) high 1 = 2 ^ (-23 : Int) ∧ deviceUniform r true (-1) high 1 = 2 ^ (-23 : Int) ∧
      high < 2 ^ (-23 : Int) := by
  decide +kernel

/-- The lower end of the range is reached, although no draw is 0: the smallest one, `2^-33`, is lost in the sum. -/
example : deviceUniform (ieee 24 (-149) : Rounding ℚ) false (-(1 / 128)) (1 / 128) (2 ^ (-33 : Int)) = -(1 / 128) := by
  decide +kernel

/-- Four initial factors: ALS, BPR with 3 factors, ALS on the GPU with 64 factors in single and half precision. -/
example :
    roundAlsStart (ieee 53 (-1074)) (ieee 24 (-149)) (1 / 2 : ℚ) = 10737418 / 2147483648 ∧
    roundBprStart (ieee 24 (-149)) 3 (3 / 4 : ℚ) = 11184811 / 134217728 ∧
    roundGpuAlsStart (ieee 53 (-1074)) (ieee 24 (-149)) (ieee 24 (-149)) false 64 (3 / 4 : ℚ) = 1 / 256 ∧
    roundGpuAlsStart (ieee 53 (-1074)) (ieee 24 (-149)) (ieee 11 (-24)) true 3 (1 : ℚ) = 1365 / 8192 := by
  decide +kernel

/-- The bounds are attained up to rounding: `0.5 / 3` in half precision. -/
example : (ieee 11 (-24) : Rounding ℚ).rnd ((ieee 24 (-149) : Rounding ℚ).rnd ((ieee 53 (-1074) : Rounding ℚ).rnd (1 / 2 / 3))) = 1365 / 8192 := by
  decide +kernel

/-- All hypotheses of `C101_gpu_als` hold for IEEE arithmetic. -/
example (u : ℝ) (h0 : 0 < u) (h1 : u ≤ 1) : |roundGpuAlsStart (ieee 53 (-1074)) (ieee 24 (-149)) (ieee 11 (-24)) true 64 u| ≤
    (ieee 11 (-24) : Rounding ℝ).rnd ((ieee 24 (-149) : Rounding ℝ).rnd ((ieee 53 (-1074) : Rounding ℝ).rnd (1 / 2 / (64 : Nat)))) :=
  C101_gpu_als (ieee_even (by norm_num) _) (ieee_even (by norm_num) _) (ieee_even (by norm_num) _) (ieee_double (by norm_num) _) true 64 h0 h1

end Implicit
