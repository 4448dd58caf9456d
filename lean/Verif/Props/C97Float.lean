import Verif.Props.C97Epochs
import Verif.Props.C94Float
/-!
# C97: BPR training in floating point stays in range — the logistic function, and the defaults in single precision
-/

set_option linter.unusedSectionVars false

namespace Implicit

open Spec

/-- The computed logistic function is good enough; that `exp` overflows for large scores does no harm. -/
theorem bprSig_good {r s : Rounding ℝ} (hr : r.Orderly 2) (hs : s.Orderly 2) {u η Ω Ω' B : ℝ} (hru : r.u ≤ u) (hrη : r.η ≤ η)
    (hsu : s.u ≤ u) (hsη : s.η ≤ η) (hu : u ≤ 1 / 1000) (hη : η * (B + 1) ≤ 1 / 1000) (hB : 0 ≤ B) (hΩ : 1 ≤ Ω)
    {ex : ℝ → ℝ} (h0 : ∀ x, 0 ≤ ex x) (h1 : ∀ x, 0 ≤ x → 15 / 16 * Real.exp x ≤ ex x) :
    GoodSig (limitBprSig r s Ω Ω' ex) B := by
  have e0 : ∀ q : Rounding ℝ, q.Orderly 2 → q.rnd 0 = 0 := fun q hq => by simpa using hq.exact 0 (by decide)
  have e1 : ∀ q : Rounding ℝ, q.Orderly 2 → q.rnd 1 = 1 := fun q hq => by
    have := hq.exact 2 (by decide)
    norm_num at this
    exact this
  have hlim : ∀ y, 0 ≤ y → y ≤ 1 → limit r Ω y = some (r.rnd y) ∧ 0 ≤ r.rnd y ∧ r.rnd y ≤ 1 := fun y y0 y1 => by
    have k0 : 0 ≤ r.rnd y := by rw [← e0 r hr]; exact hr.mono y0
    have k1 : r.rnd y ≤ 1 := by rw [← e1 r hr]; exact hr.mono y1
    refine ⟨?_, k0, k1⟩
    unfold limit
    rw [if_pos]
    rw [abs_of_nonneg k0]
    linarith
  intro x hx
  have hxB : x ≤ B := (le_abs_self x).trans hx
  by_cases hc : ex x ≤ Ω' ∧ s.rnd (1 + ex x) ≤ Ω'
  · set D := s.rnd (1 + ex x) with hD
    have hD1 : 1 ≤ D := by
      rw [← e1 s hs]
      exact hs.mono (by linarith [h0 x])
    have hq0 : 0 ≤ 1 / D := by positivity
    have hq1 : 1 / D ≤ 1 := by rw [div_le_one (by linarith)]; exact hD1
    have k0 : 0 ≤ s.rnd (1 / D) := by rw [← e0 s hs]; exact hs.mono hq0
    have k1 : s.rnd (1 / D) ≤ 1 := (hs.mono hq1).trans_eq (e1 s hs)
    obtain ⟨l1, l2, l3⟩ := hlim _ k0 k1
    refine ⟨r.rnd (s.rnd (1 / D)), ?_, l2, l3, ?_⟩
    · show (if ex x ≤ Ω' ∧ s.rnd (1 + ex x) ≤ Ω' then limit r Ω (s.rnd (1 / s.rnd (1 + ex x))) else limit r Ω (s.rnd 0)) = _
      rw [if_pos hc]
      exact l1
    · rcases le_total x 0 with hx0 | hx0
      · have := mul_nonpos_of_nonneg_of_nonpos l2 hx0
        linarith
      · have hη0 : 0 ≤ η := r.η_nonneg.trans hrη
        have n1 : |D - (1 + ex x)| ≤ u * (1 + ex x) + η := rnd_near hsu hsη (by rw [abs_of_nonneg (by linarith [h0 x])])
        have n2 : |s.rnd (1 / D) - 1 / D| ≤ u * (1 / D) + η := rnd_near hsu hsη (by rw [abs_of_nonneg hq0])
        have n3 : |r.rnd (s.rnd (1 / D)) - s.rnd (1 / D)| ≤ u * s.rnd (1 / D) + η := rnd_near hru hrη (by rw [abs_of_nonneg k0])
        have hE := Real.quadratic_le_exp_of_nonneg hx0
        have hE1 := h1 x hx0
        have hxe : 28 / 10 * x ≤ 1 + ex x := by nlinarith [sq_nonneg (x - 2)]
        have hηx : η * x ≤ 1 / 1000 := by
          have := mul_le_mul_of_nonneg_left (show x ≤ B + 1 by linarith) hη0
          linarith
        have hη1 : η ≤ 1 / 1000 := by
          have := mul_nonneg hη0 hB
          linarith
        have n1' := (abs_le.mp n1).1
        have n2' := (abs_le.mp n2).2
        have n3' := (abs_le.mp n3).2
        have hex := h0 x
        have hDx : 27 / 10 * x ≤ D := by
          have : u * (1 + ex x) ≤ 1 / 1000 * (1 + ex x) := mul_le_mul_of_nonneg_right hu (by linarith)
          linarith
        have hxD : x * (1 / D) ≤ 10 / 27 := by
          rw [mul_one_div, div_le_iff₀ (by linarith)]
          linarith
        have hxD0 : 0 ≤ x * (1 / D) := mul_nonneg hx0 hq0
        have p1 : s.rnd (1 / D) ≤ (1 + 1 / 1000) * (1 / D) + η := by
          have := mul_le_mul_of_nonneg_right hu hq0
          linarith
        have p2 : r.rnd (s.rnd (1 / D)) ≤ (1 + 1 / 1000) * s.rnd (1 / D) + η := by
          have := mul_le_mul_of_nonneg_right hu k0
          linarith
        have p3 := mul_le_mul_of_nonneg_right (show r.rnd (s.rnd (1 / D)) ≤ (1 + 1 / 1000) * ((1 + 1 / 1000) * (1 / D) + η) + η by linarith) hx0
        linarith
  · refine ⟨0, ?_, le_rfl, by norm_num, by simp⟩
    show (if ex x ≤ Ω' ∧ s.rnd (1 + ex x) ≤ Ω' then limit r Ω (s.rnd (1 / s.rnd (1 + ex x))) else limit r Ω (s.rnd 0)) = _
    rw [if_neg hc, e0 s hs, (hlim 0 le_rfl zero_le_one).1, e0 r hr]

/-! ## The defaults in single precision -/

theorem float_range {lr reg Ω : ℝ} {factors : Nat} (hf : factors ≤ 100) (hlr : |lr - 1 / 100| ≤ 1 / 10 ^ 9) (hreg : |reg - 1 / 100| ≤ 1 / 10 ^ 9)
    (hΩ : 10 ^ 38 ≤ Ω) : BprRange (1 / 16777216) (1 / 10 ^ 45) Ω lr reg factors (2 * 10 ^ 33) := by
  obtain ⟨l1, l2⟩ := abs_le.mp hlr
  obtain ⟨r1, r2⟩ := abs_le.mp hreg
  have hf' : (factors : ℝ) ≤ 100 := by exact_mod_cast hf
  norm_num at l1 l2 r1 r2 hΩ
  refine ⟨by norm_num, by norm_num, by linarith, by linarith, by linarith, by linarith, by norm_num, ?_, ?_, ?_⟩
  · norm_num
    linarith
  · norm_num
    linarith
  · norm_num
    linarith

theorem float_growth_le {lr reg : ℝ} {factors : Nat} (hf : factors ≤ 100) (hlr : |lr - 1 / 100| ≤ 1 / 10 ^ 9) (hreg : |reg - 1 / 100| ≤ 1 / 10 ^ 9) :
    floatGrowth (1 / 16777216) lr reg factors ≤ 1 + 6 / 10 ^ 7 := by
  obtain ⟨l1, l2⟩ := abs_le.mp hlr
  obtain ⟨r1, r2⟩ := abs_le.mp hreg
  have hf' : (factors : ℝ) ≤ 100 := by exact_mod_cast hf
  have hf0 : (0 : ℝ) ≤ factors := by positivity
  norm_num at l1 l2 r1 r2
  have hlr0 : 0 ≤ lr := by linarith
  have hb : bprGrowth lr reg ≤ 1 + 11 / 10 ^ 9 := by
    unfold bprGrowth
    refine max_le (by norm_num) ?_
    have h1 : lr * reg ≤ lr * (10000001 / 1000000000) := mul_le_mul_of_nonneg_left (by linarith) hlr0
    have h2 : lr * (9999999 / 1000000000) ≤ lr * reg := mul_le_mul_of_nonneg_left (by linarith) hlr0
    have h3 : lr * lr ≤ lr * (10000001 / 1000000000) := mul_le_mul_of_nonneg_left (by linarith) hlr0
    have h4 : (lr * reg) * (lr * reg) ≤ (101 / 1000000) * (101 / 1000000) := by
      refine mul_le_mul ?_ ?_ (by nlinarith) (by norm_num) <;> linarith
    rw [show (1 - lr * reg) ^ 2 + 2 * lr ^ 2 = 1 - 2 * (lr * reg) + (lr * reg) * (lr * reg) + 2 * (lr * lr) by ring]
    norm_num at h4 ⊢
    linarith
  have hlf : lr * (1 / 16777216 * ((factors : ℝ) + 2)) ≤ 10000001 / 1000000000 * (1 / 16777216 * 102) := by
    refine mul_le_mul (by linarith) ?_ (by positivity) (by norm_num)
    linarith
  have hlf0 : 0 ≤ lr * (1 / 16777216 * ((factors : ℝ) + 2)) := by positivity
  unfold floatGrowth
  have hC : (1 + (9 / 4 + 2 * lr) * (1 / 16777216) : ℝ) ≤ 1 + 1355 / 10 ^ 10 := by norm_num; linarith
  have hX : bprGrowth lr reg + 6 * (lr * (1 / 16777216 * ((factors : ℝ) + 2))) ≤ 1 + 11 / 10 ^ 9 + 6 * (10000001 / 1000000000 * (1 / 16777216 * 102)) := by
    linarith
  have hX0 : 0 ≤ bprGrowth lr reg + 6 * (lr * (1 / 16777216 * ((factors : ℝ) + 2))) := by
    have : 1 ≤ bprGrowth lr reg := le_max_left _ _
    linarith
  have h5 := mul_le_mul hC hX hX0 (by norm_num)
  refine (add_le_add_left h5 _).trans ?_
  norm_num
  linarith

theorem float_gain_le {lr : ℝ} (hlr : |lr - 1 / 100| ≤ 1 / 10 ^ 9) : floatGain (1 / 16777216) lr ≤ 306 / 10 ^ 4 := by
  obtain ⟨l1, l2⟩ := abs_le.mp hlr
  norm_num at l1 l2
  unfold floatGain
  have : lr ^ 2 ≤ (101 / 10000) ^ 2 := pow_le_pow_left₀ (by linarith) (by linarith) 2
  norm_num at this ⊢
  linarith

theorem float_total {G g E₀ : ℝ} {n : Nat} (hG1 : 1 ≤ G) (hG : G ≤ 1 + 6 / 10 ^ 7) (hg0 : 0 ≤ g) (hg : g ≤ 306 / 10 ^ 4) (hE0 : 0 ≤ E₀) (hE : E₀ ≤ 6 * 10 ^ 6)
    (hn : n ≤ 10 ^ 8) : G ^ n * (E₀ + n * g) ≤ 2 * 10 ^ 33 := by
  have hn' : (n : ℝ) ≤ 10 ^ 8 := by exact_mod_cast hn
  have hn0 : (0 : ℝ) ≤ n := by positivity
  have h1 : G ^ n ≤ Real.exp 60 := by
    refine (pow_le_pow_left₀ (by linarith) hG n).trans ((one_add_pow_le_exp _ (by norm_num) n).trans (Real.exp_le_exp.mpr ?_))
    have := mul_le_mul_of_nonneg_right hn' (show (0 : ℝ) ≤ 6 / 10 ^ 7 by norm_num)
    refine this.trans ?_
    norm_num
  have h2 : Real.exp 60 ≤ 115 * 10 ^ 24 := by
    have h3 : Real.exp 60 = Real.exp 1 ^ 60 := by rw [← Real.exp_nat_mul]; norm_num
    rw [h3]
    refine (pow_le_pow_left₀ (Real.exp_pos 1).le Real.exp_one_lt_d9.le 60).trans ?_
    norm_num
  have h4 : (n : ℝ) * g ≤ 10 ^ 8 * (306 / 10 ^ 4) := mul_le_mul hn' hg hg0 (by norm_num)
  have h5 : 0 ≤ (n : ℝ) * g := by positivity
  calc G ^ n * (E₀ + n * g) ≤ (115 * 10 ^ 24) * (6 * 10 ^ 6 + 10 ^ 8 * (306 / 10 ^ 4)) :=
        mul_le_mul (h1.trans h2) (by linarith) (by linarith) (by norm_num)
    _ ≤ 2 * 10 ^ 33 := by norm_num

/-- The energy of factors of bounded size. -/
theorem energy_of_within {users items factors : Nat} {b : ℝ} {x : BprCell → ℝ} (h : FactorsWithin users items factors b x) :
    trainingEnergy users items factors x ≤ (users * factors + items * (factors + 2)) * b ^ 2 := by
  have hsq : ∀ y : ℝ, |y| ≤ b → y ^ 2 ≤ b ^ 2 := fun y hy => by
    rw [← sq_abs y]
    exact pow_le_pow_left₀ (abs_nonneg y) hy 2
  have h1 : ∑ u ∈ Finset.range users, ∑ j ∈ Finset.range factors, x (.user u j) ^ 2 ≤ users * (factors * b ^ 2) := by
    refine (Finset.sum_le_sum fun u hu => Finset.sum_le_sum fun j hj =>
      hsq _ (h.1 u (Finset.mem_range.mp hu) j (Finset.mem_range.mp hj))).trans (le_of_eq ?_)
    simp
  have h2 : ∑ i ∈ Finset.range items, (∑ j ∈ Finset.range factors, x (.item i j) ^ 2 + 2 * x (.item i factors) ^ 2) ≤
      items * (factors * b ^ 2 + 2 * b ^ 2) := by
    refine (Finset.sum_le_sum fun i hi => add_le_add (Finset.sum_le_sum fun j hj =>
      hsq _ (h.2 i (Finset.mem_range.mp hi) j (Finset.mem_range.mp hj).le))
      (mul_le_mul_of_nonneg_left (hsq _ (h.2 i (Finset.mem_range.mp hi) factors le_rfl)) (by norm_num : (0 : ℝ) ≤ 2))).trans (le_of_eq ?_)
    simp [mul_add]
  unfold trainingEnergy
  linarith

/-- **C97, single precision is enough** for the default learning rate and regularisation, up to 100 factors (the default), a million users and a
million items, and a hundred million samples (for instance 100 epochs, the default, of a million entries) with one thread: from initial factors of
size at most `1 / factors` (`fit` draws them below half of that), `fit` raises no error, no factor is infinite or NaN, and all are below `10 ^ 17`. -/
theorem C97_float {Th : Type} [DecidableEq Th] [Unique Th] [Fintype Th] {users items factors : Nat} {r s : Rounding ℝ}
    (hru : r.u ≤ 1 / 16777216) (hrη : r.η ≤ 1 / 10 ^ 45) (hsu : s.u ≤ 1 / 16777216) (hsη : s.η ≤ 1 / 10 ^ 45) (hr : r.Orderly 2) (hs : s.Orderly 2)
    {Ω Ω' : ℝ} (hΩ : 10 ^ 38 ≤ Ω) {ex : ℝ → ℝ} (h0 : ∀ x, 0 ≤ ex x) (h1 : ∀ x, 0 ≤ x → 15 / 16 * Real.exp x ≤ ex x) {lr reg : ℝ}
    (hlr : |lr - 1 / 100| ≤ 1 / 10 ^ 9) (hreg : |reg - 1 / 100| ≤ 1 / 10 ^ 9) (hf0 : 0 < factors) (hf : factors ≤ 100) (hus : users ≤ 10 ^ 6)
    (hit : items ≤ 10 ^ 6) (matrix : List (List Nat)) (hm : matrix.length ≤ users) (hcols : ∀ u i, Likes matrix u i → i < items)
    (σ : Th → BprScratch (Option ℝ)) (epochs : List (BprEpoch Th)) (he : ∀ e ∈ epochs, e.Valid true (bprRows true matrix) factors)
    (hn : epochs.length * nnz matrix ≤ 10 ^ 8) (half : Option ℝ) (m : BprCell → Option ℝ) (x : BprCell → ℝ)
    (hx : HasValues users items factors m x) (hone : ∀ u, u < users → x (.user u factors) = 1)
    (hw : FactorsWithin users items factors (1 / factors) x) :
    ∃ m' x', (limitOps r Ω).bprFit users items factors (limitBprSig r s Ω Ω' ex) half (some lr) (some reg) σ epochs m = .ok m' ∧
      HasValues users items factors m' x' ∧ (∀ u, u < users → x' (.user u factors) = 1) ∧ FactorsWithin users items factors (10 ^ 17) x' := by
  have P := float_range hf hlr hreg hΩ
  have hsig : GoodSig (limitBprSig r s Ω Ω' ex) (2 * 10 ^ 33 + 1) :=
    bprSig_good hr hs hru hrη hsu hsη (by norm_num) (by norm_num) (by norm_num) (by linarith [show (1 : ℝ) ≤ 10 ^ 38 by norm_num]) h0 h1
  have hE0 : trainingEnergy users items factors x ≤ 6 * 10 ^ 6 := by
    refine (energy_of_within hw).trans ?_
    have hF1 : (1 : ℝ) ≤ factors := by exact_mod_cast hf0
    have hU : (users : ℝ) ≤ 10 ^ 6 := by exact_mod_cast hus
    have hI : (items : ℝ) ≤ 10 ^ 6 := by exact_mod_cast hit
    rw [div_pow, one_pow, mul_one_div, div_le_iff₀ (by positivity)]
    have k1 : (users : ℝ) * factors ≤ 10 ^ 6 * factors := mul_le_mul_of_nonneg_right hU (by linarith)
    have k2 : (items : ℝ) * (factors + 2) ≤ 10 ^ 6 * (factors + 2) := mul_le_mul_of_nonneg_right hI (by linarith)
    nlinarith
  have hT := float_total (n := epochs.length * nnz matrix) (floatGrowth_ge P) (float_growth_le hf hlr hreg) (floatGain_nonneg P) (float_gain_le hlr)
    (trainingEnergy_nonneg (users := users) (items := items) (factors := factors) x) hE0 hn
  obtain ⟨m', x', k1, k2, k3, k4⟩ := C97_fit hru hrη hr P hsig half matrix hm hcols σ epochs he m x hx hone hT
  refine ⟨m', x', k1, k2, k3, within_of_energy (by norm_num) x' (k4.trans (hT.trans ?_))⟩
  norm_num

end Implicit
