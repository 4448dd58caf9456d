import Verif.Props.C92
/-!
# C92 — the reported training loss can be negative

The loss is a sum of squares, but `calculate_loss` gets it as a difference of large numbers: with one user, one item and the confidence
`3145728`, the products in single precision are off by `1/4`.
-/

namespace Implicit

theorem roundFree_val (p : Nat) (n e : Int) {x q : ℝ} (h1 : 2 ^ e ≤ |x|) (h2 : |x| < 2 ^ (e + 1)) (h3 : |x / 2 ^ (e - p + 1) - n| < 1 / 2)
    (hq : q = n * 2 ^ (e - p + 1)) : roundFree p x = q := by
  have hx : 0 < |x| := lt_of_lt_of_le (by positivity) h1
  have hlog : Int.log 2 |x| = e := by
    refine le_antisymm ?_ ?_
    · have := (Int.lt_zpow_iff_log_lt (b := 2) (R := ℝ) (by norm_num) hx).mp (by exact_mod_cast h2)
      omega
    · exact (Int.zpow_le_iff_le_log (b := 2) (R := ℝ) (by norm_num) hx).mp (by exact_mod_cast h1)
  unfold roundFree
  rw [hlog, hq]
  have : round (x / 2 ^ (e - p + 1)) = n := by
    have h4 := abs_sub_round (x / 2 ^ (e - p + 1))
    have h5 : |((round (x / 2 ^ (e - p + 1)) - n : Int) : ℝ)| < 1 := by
      push_cast
      rw [abs_lt] at h3 ⊢
      rw [abs_le] at h4
      constructor <;> linarith [h3.1, h3.2, h4.1, h4.2]
    have h6 : |round (x / 2 ^ (e - p + 1)) - n| < 1 := by exact_mod_cast h5
    have := abs_lt.mp h6
    omega
  rw [this]

theorem roundFree_pos (p : Nat) (n e : Int) {x q : ℝ} (h1 : 2 ^ e ≤ x) (h2 : x < 2 ^ (e + 1)) (h3 : x / 2 ^ (e - p + 1) - n < 1 / 2)
    (h4 : -(1 / 2) < x / 2 ^ (e - p + 1) - n) (hq : q = n * 2 ^ (e - p + 1)) : roundFree p x = q := by
  have hx : |x| = x := abs_of_pos (lt_of_lt_of_le (by positivity) h1)
  exact roundFree_val p n e (by rw [hx]; exact h1) (by rw [hx]; exact h2) (abs_lt.mpr ⟨h4, h3⟩) hq

theorem roundFree_neg (p : Nat) (n e : Int) {x q : ℝ} (h1 : 2 ^ e ≤ -x) (h2 : -x < 2 ^ (e + 1)) (h3 : x / 2 ^ (e - p + 1) - n < 1 / 2)
    (h4 : -(1 / 2) < x / 2 ^ (e - p + 1) - n) (hq : q = n * 2 ^ (e - p + 1)) : roundFree p x = q := by
  have h0 : 0 < -x := lt_of_lt_of_le (by positivity) h1
  have hx : |x| = -x := abs_of_neg (by linarith)
  exact roundFree_val p n e (by rw [hx]; exact h1) (by rw [hx]; exact h2) (abs_lt.mpr ⟨h4, h3⟩) hq

/-- The witness: single precision (`24` bits) for the factors, double precision (`53` bits) for the sums. -/
theorem negative_loss : roundCalculateLoss (f := 1) (roundOps (freeFloat 24) false) (roundOps (freeFloat 53) false)
    (roundOps (freeFloat 24) false).products (freeFloat 24) [[0]] [[0]] [[(0, 3145728)]] 1 [fun _ => 16381 / 16384] [fun _ => 16387 / 16384]
    (fun _ _ => .leaf 0) (1 / 128) = .ok ((freeFloat 53).rnd (-503316479 / 2147483648 / 3145728)) := by
  have hG : roundGram (freeFloat 24) [fun _ : Fin 1 => (16387 / 16384 : ℝ)] (fun _ _ => .leaf 0) =
      fun _ _ => (roundOps (freeFloat 24) false).mul (16387 / 16384) (16387 / 16384) := rfl
  obtain ⟨A, hA⟩ : ∃ A, A = roundOps (freeFloat 24) false := ⟨_, rfl⟩
  obtain ⟨D, hD⟩ : ∃ D, D = roundOps (freeFloat 53) false := ⟨_, rfl⟩
  have hAadd : ∀ a b, A.add a b = roundFree 24 (a + b) := fun a b => by rw [hA]; rfl
  have hAsub : ∀ a b, A.sub a b = roundFree 24 (a - b) := fun a b => by rw [hA]; rfl
  have hAmul : ∀ a b, A.mul a b = roundFree 24 (a * b) := fun a b => by rw [hA]; rfl
  have hAaxpy : ∀ t y s, A.axpy t y s = roundFree 24 (s + roundFree 24 (t * y)) := fun t y s => by rw [hA]; rfl
  have hAlt : ∀ a b, A.lt a b = decide (a < b) := fun a b => by rw [hA]; rfl
  have hA0 : A.zero = 0 := by rw [hA]; rfl
  have hA1 : A.one = 1 := by rw [hA]; rfl
  have hDadd : ∀ a b, D.add a b = roundFree 53 (a + b) := fun a b => by rw [hD]; rfl
  have hDsub : ∀ a b, D.sub a b = roundFree 53 (a - b) := fun a b => by rw [hD]; rfl
  have hDaxpy : ∀ t y s, D.axpy t y s = roundFree 53 (s + roundFree 53 (t * y)) := fun t y s => by rw [hD]; rfl
  have hDdiv : ∀ a b, D.div a b = (freeFloat 53).rnd (a / b) := fun a b => by rw [hD]; rfl
  have hD0 : D.zero = 0 := by rw [hD]; rfl
  rw [← hA] at hG
  rw [← hA, ← hD]
  have hdot : ∀ x y : Vec 1 ℝ, A.products.dot x y = A.add A.zero (A.mul (x 0) (y 0)) := fun x y => by
    show A.dot x y = _
    unfold FloatOps.dot
    rw [show List.finRange 1 = [0] from rfl]
    rfl
  have hsymv : ∀ (G : Mat 1 ℝ) (x : Vec 1 ℝ) a, A.products.symv G x a = A.add A.zero (A.mul (G 0 0) (x 0)) := fun G x a => by
    show A.dot (lowerPart G a) x = _
    unfold FloatOps.dot
    rw [show List.finRange 1 = [0] from rfl, Subsingleton.elim a 0]
    rfl
  have e1 : A.mul (16387 / 16384) (16387 / 16384) = 8195 / 8192 := by
    rw [hAmul]
    exact roundFree_pos 24 (8391680) (0) (by norm_num) (by norm_num) (by norm_num) (by norm_num) (by norm_num)
  have e2 : A.mul (8195 / 8192) (16381 / 16384) = 8390143 / 8388608 := by
    rw [hAmul]
    exact roundFree_pos 24 (8390143) (0) (by norm_num) (by norm_num) (by norm_num) (by norm_num) (by norm_num)
  have e3 : A.add (0) (8390143 / 8388608) = 8390143 / 8388608 := by
    rw [hAadd]
    exact roundFree_pos 24 (8390143) (0) (by norm_num) (by norm_num) (by norm_num) (by norm_num) (by norm_num)
  have e4 : A.mul (16387 / 16384) (16381 / 16384) = 16777215 / 16777216 := by
    rw [hAmul]
    exact roundFree_pos 24 (16777215) (-1) (by norm_num) (by norm_num) (by norm_num) (by norm_num) (by norm_num)
  have e5 : A.add (0) (16777215 / 16777216) = 16777215 / 16777216 := by
    rw [hAadd]
    exact roundFree_pos 24 (16777215) (-1) (by norm_num) (by norm_num) (by norm_num) (by norm_num) (by norm_num)
  have e6 : A.mul (-2) (3145728) = -6291456 := by
    rw [hAmul]
    exact roundFree_neg 24 (-12582912) (22) (by norm_num) (by norm_num) (by norm_num) (by norm_num) (by norm_num)
  have e7 : A.sub (3145728) (1) = 3145727 := by
    rw [hAsub]
    exact roundFree_pos 24 (12582908) (21) (by norm_num) (by norm_num) (by norm_num) (by norm_num) (by norm_num)
  have m8 : roundFree 24 ((3145727) * (16777215 / 16777216) : ℝ) = 12582907 / 4 := 
    roundFree_pos 24 (12582907) (21) (by norm_num) (by norm_num) (by norm_num) (by norm_num) (by norm_num)
  have e8 : A.axpy (3145727) (16777215 / 16777216) (-6291456) = -12582917 / 4 := by
    rw [hAaxpy, m8]
    exact roundFree_neg 24 (-12582917) (21) (by norm_num) (by norm_num) (by norm_num) (by norm_num) (by norm_num)
  have m9 : roundFree 24 ((-12582917 / 4) * (16387 / 16384) : ℝ) = -12585221 / 4 := 
    roundFree_neg 24 (-12585221) (21) (by norm_num) (by norm_num) (by norm_num) (by norm_num) (by norm_num)
  have e9 : A.axpy (-12582917 / 4) (16387 / 16384) (8390143 / 8388608) = -12585217 / 4 := by
    rw [hAaxpy, m9]
    exact roundFree_neg 24 (-12585217) (21) (by norm_num) (by norm_num) (by norm_num) (by norm_num) (by norm_num)
  have e10 : A.mul (-12585217 / 4) (16381 / 16384) = -12582913 / 4 := by
    rw [hAmul]
    exact roundFree_neg 24 (-12582913) (21) (by norm_num) (by norm_num) (by norm_num) (by norm_num) (by norm_num)
  have e11 : A.add (0) (-12582913 / 4) = -12582913 / 4 := by
    rw [hAadd]
    exact roundFree_neg 24 (-12582913) (21) (by norm_num) (by norm_num) (by norm_num) (by norm_num) (by norm_num)
  have e12 : A.mul (16381 / 16384) (16381 / 16384) = 16771073 / 16777216 := by
    rw [hAmul]
    exact roundFree_pos 24 (16771073) (-1) (by norm_num) (by norm_num) (by norm_num) (by norm_num) (by norm_num)
  have e13 : A.add (0) (16771073 / 16777216) = 16771073 / 16777216 := by
    rw [hAadd]
    exact roundFree_pos 24 (16771073) (-1) (by norm_num) (by norm_num) (by norm_num) (by norm_num) (by norm_num)
  have e14 : A.add (0) (8195 / 8192) = 8195 / 8192 := by
    rw [hAadd]
    exact roundFree_pos 24 (8391680) (0) (by norm_num) (by norm_num) (by norm_num) (by norm_num) (by norm_num)
  have e15 : D.add (0) (3145728) = 3145728 := by
    rw [hDadd]
    exact roundFree_pos 53 (6755399441055744) (21) (by norm_num) (by norm_num) (by norm_num) (by norm_num) (by norm_num)
  have e16 : D.add (3145728) (-12582913 / 4) = -1 / 4 := by
    rw [hDadd]
    exact roundFree_neg 53 (-4503599627370496) (-2) (by norm_num) (by norm_num) (by norm_num) (by norm_num) (by norm_num)
  have e17 : D.add (0) (-1 / 4) = -1 / 4 := by
    rw [hDadd]
    exact roundFree_neg 53 (-4503599627370496) (-2) (by norm_num) (by norm_num) (by norm_num) (by norm_num) (by norm_num)
  have e18 : D.add (0) (3145728) = 3145728 := by
    rw [hDadd]
    exact roundFree_pos 53 (6755399441055744) (21) (by norm_num) (by norm_num) (by norm_num) (by norm_num) (by norm_num)
  have e19 : D.add (0) (3145728) = 3145728 := by
    rw [hDadd]
    exact roundFree_pos 53 (6755399441055744) (21) (by norm_num) (by norm_num) (by norm_num) (by norm_num) (by norm_num)
  have e20 : D.add (0) (16771073 / 16777216) = 16771073 / 16777216 := by
    rw [hDadd]
    exact roundFree_pos 53 (9003901256728576) (-1) (by norm_num) (by norm_num) (by norm_num) (by norm_num) (by norm_num)
  have e21 : D.add (0) (16771073 / 16777216) = 16771073 / 16777216 := by
    rw [hDadd]
    exact roundFree_pos 53 (9003901256728576) (-1) (by norm_num) (by norm_num) (by norm_num) (by norm_num) (by norm_num)
  have e22 : D.add (0) (8195 / 8192) = 8195 / 8192 := by
    rw [hDadd]
    exact roundFree_pos 53 (4505248894812160) (0) (by norm_num) (by norm_num) (by norm_num) (by norm_num) (by norm_num)
  have e23 : D.add (0) (8195 / 8192) = 8195 / 8192 := by
    rw [hDadd]
    exact roundFree_pos 53 (4505248894812160) (0) (by norm_num) (by norm_num) (by norm_num) (by norm_num) (by norm_num)
  have e24 : D.add (8195 / 8192) (16771073 / 16777216) = 33554433 / 16777216 := by
    rw [hDadd]
    exact roundFree_pos 53 (4503599761588224) (1) (by norm_num) (by norm_num) (by norm_num) (by norm_num) (by norm_num)
  have m25 : roundFree 53 ((1 / 128) * (33554433 / 16777216) : ℝ) = 33554433 / 2147483648 := 
    roundFree_pos 53 (4503599761588224) (-6) (by norm_num) (by norm_num) (by norm_num) (by norm_num) (by norm_num)
  have e25 : D.axpy (1 / 128) (33554433 / 16777216) (-1 / 4) = -503316479 / 2147483648 := by
    rw [hDaxpy, m25]
    exact roundFree_neg 53 (-8444249284542464) (-3) (by norm_num) (by norm_num) (by norm_num) (by norm_num) (by norm_num)
  have e26 : D.add (3145728) (1) = 3145729 := by
    rw [hDadd]
    exact roundFree_pos 53 (6755401588539392) (21) (by norm_num) (by norm_num) (by norm_num) (by norm_num) (by norm_num)
  have e27 : D.sub (3145729) (1) = 3145728 := by
    rw [hDsub]
    exact roundFree_pos 53 (6755399441055744) (21) (by norm_num) (by norm_num) (by norm_num) (by norm_num) (by norm_num)
  unfold roundCalculateLoss
  rw [hG]
  show Except.ok (roundLossSums D A.products [[0]] [[0]] 1 1
    [roundLossRow A A.products (fun _ _ => A.mul (16387 / 16384) (16387 / 16384)) [(fun _ => 16387 / 16384, 3145728)] fun _ => 16381 / 16384]
    [fun _ => 16387 / 16384] (1 / 128)) = _
  have hrow : roundLossRow A A.products (fun _ _ : Fin 1 => A.mul (16387 / 16384) (16387 / 16384)) [(fun _ => 16387 / 16384, 3145728)]
      (fun _ => 16381 / 16384) = ⟨[3145728], -12582913 / 4, 16771073 / 16777216⟩ := by
    unfold roundLossRow roundConfidence roundLossVector
    simp only [List.map_cons, List.map_nil, List.foldl_cons, List.foldl_nil, hdot, hAlt, hA0, hA1]
    rw [if_pos (by simp), if_pos (by simp)]
    unfold FloatOps.axpyVec
    simp only [hsymv, hA0, e1, e2, e3, e4, e5, e6, e7, e8, e9, e10, e11, e12, e13]
  rw [hrow]
  show Except.ok (D.div (D.axpy (1 / 128) (D.add (D.add D.zero (D.add D.zero (A.products.dot (fun _ => 16387 / 16384) fun _ => 16387 / 16384)))
      (D.add D.zero (D.add D.zero (16771073 / 16777216)))) (D.add D.zero (D.add (D.add D.zero 3145728) (-12582913 / 4))))
    (D.sub (D.add (D.add D.zero (D.add D.zero 3145728)) ((1 : Nat) : ℝ)) ((1 : Nat) : ℝ))) = _
  rw [hdot, hA0, hD0, e1, e14, e22, e22, e20, e20, e24, e15, e16, e17, e15, e25, Nat.cast_one, e26, e27, hDdiv]

/-- A rounding with a relative error below one keeps the sign. -/
theorem rnd_neg {r : Rounding ℝ} (h0 : r.η = 0) (hu : r.u < 1) {x : ℝ} (hx : x < 0) : r.rnd x < 0 := by
  have h := r.err x
  rw [h0, add_zero, abs_of_neg hx] at h
  have := (abs_le.mp h).2
  nlinarith

/-- **C92 is violated** if a loss is expected not to be negative: this data makes `calculate_loss` report a negative loss, although the loss
itself is positive. -/
theorem C92_negative_violated : ∃ ℓ l : ℝ,
    roundCalculateLoss (f := 1) (roundOps (freeFloat 24) false) (roundOps (freeFloat 53) false)
      (roundOps (freeFloat 24) false).products (freeFloat 24) [[0]] [[0]] [[(0, 3145728)]] 1 [fun _ => 16381 / 16384] [fun _ => 16387 / 16384]
      (fun _ _ => .leaf 0) (1 / 128) = .ok ℓ ∧ ℓ < 0 ∧
    l = Spec.objective [[(0, 3145728)]] [fun _ : Fin 1 => 16381 / 16384] [fun _ => 16387 / 16384] (1 / 128) /
      Spec.totalConfidence [[(0, (3145728 : ℝ))]] 1 1 ∧ 0 < l := by
  refine ⟨_, _, negative_loss, rnd_neg rfl ?_ (by norm_num), rfl, ?_⟩
  · show (2 : ℝ) ^ (-((53 : Nat) : Int)) < 1
    norm_num
  · simp only [Spec.objective, Spec.totalConfidence, Spec.confidence, Spec.preference, Spec.sqNorm, List.length_cons, List.length_nil,
      Fin.sum_univ_one, List.map_cons, List.map_nil, List.sum_cons, List.sum_nil, zero_add]
    norm_num [List.lookup]

/-- The hypotheses of the theorems hold here: the reported loss is negative, but close to the loss. -/
example : |(freeFloat 53).rnd (-503316479 / 2147483648 / 3145728) -
      Spec.objective [[(0, 3145728)]] [fun _ : Fin 1 => (16381 / 16384 : ℝ)] [fun _ => 16387 / 16384] (1 / 128) /
        Spec.totalConfidence [[(0, (3145728 : ℝ))]] 1 1| ≤
    Spec.quotientError ((1 + 2 ^ (-24 : Int)) ^ 12 * (1 + 2 ^ (-53 : Int)) ^ 6 - 1) (2 ^ (-53 : Int))
      (Spec.objective [[(0, 3145728)]] [fun _ : Fin 1 => (16381 / 16384 : ℝ)] [fun _ => 16387 / 16384] (1 / 128))
      (Spec.totalConfidence [[(0, (3145728 : ℝ))]] 1 1)
      (Spec.lossSize [[(0, 3145728)]] [fun _ : Fin 1 => (16381 / 16384 : ℝ)] [fun _ => 16387 / 16384] (1 / 128)) 3145730 := by
  have hw : Spec.weightSize [[(0, (3145728 : ℝ))]] 1 1 = 3145730 := by
    unfold Spec.weightSize
    norm_num
  have htot : Spec.totalConfidence [[(0, (3145728 : ℝ))]] 1 1 = 3145728 := by
    simp only [Spec.totalConfidence, Spec.confidence, Fin.sum_univ_one]
    norm_num [List.lookup]
  obtain ⟨ℓ, h1, h2⟩ := C92_dense (A := roundOps (freeFloat 24) false) (D := roundOps (freeFloat 53) false)
    (roundOps_accurate (freeFloat 24) rfl false) (roundOps_accurate (freeFloat 53) rfl false)
    (products_accurate (roundOps_accurate (freeFloat 24) rfl false))
    (fun a b => by
      have := (freeFloat (R := ℝ) 53).err (a / b)
      rw [show (freeFloat (R := ℝ) 53).η = 0 from rfl, add_zero] at this
      exact this)
    (freeFloat 24) rfl rfl [[(0, 3145728)]] [fun _ : Fin 1 => 16381 / 16384] [fun _ => 16387 / 16384] (fun _ _ => .leaf 0)
    (fun _ _ => by unfold SumTree.Complete; decide) rfl
    (fun row h => by
      rw [List.mem_singleton.mp h]
      exact ⟨by simp, by simp⟩)
    (m := 1) (fun row h => by rw [List.mem_singleton.mp h]; exact le_rfl) (users := [[0]]) (items := [[0]])
    (List.Perm.refl _) (List.Perm.refl _) (K := 2) (t := 1)
    (fun rows h => by rw [List.mem_singleton.mp h]; simp)
    (fun rows h => by rw [List.mem_singleton.mp h]; simp) le_rfl le_rfl (reg := 1 / 128) (by norm_num)
    (fun row h e he => by
      rw [List.mem_singleton.mp h] at he
      rw [List.mem_singleton.mp he]
      norm_num)
    (by
      show (((1 : ℝ) + 2 ^ (-((24 : Nat) : Int))) ^ 12 * (1 + 2 ^ (-((53 : Nat) : Int))) ^ 6 - 1) *
        Spec.weightSize [[(0, (3145728 : ℝ))]] 1 1 < Spec.totalConfidence [[(0, (3145728 : ℝ))]] 1 1
      rw [hw, htot]
      norm_num)
  have e : ℓ = (freeFloat 53).rnd (-503316479 / 2147483648 / 3145728) := by
    have := h1.symm.trans negative_loss
    injection this
  rw [e, show ([fun _ : Fin 1 => (16381 / 16384 : ℝ)] : List (Vec 1 ℝ)).length = 1 from rfl,
    show ([fun _ : Fin 1 => (16387 / 16384 : ℝ)] : List (Vec 1 ℝ)).length = 1 from rfl, hw] at h2
  exact h2

end Implicit
