import Verif.Spec.Energy
import Verif.Lemmas.Gradient
import Verif.Props.C36
import Verif.Props.C37
import Mathlib.Analysis.SpecialFunctions.Exp
import Mathlib.Analysis.Complex.ExponentialBounds
import Mathlib.Tactic.Linarith
/-!
# C96: the factors of BPR stay in range
-/

namespace Implicit

open Spec

/-! ## Numbers -/

/-- The growth of the energy by one sample. -/
noncomputable def bprGrowth (lr reg : ℝ) : ℝ := max 1 ((1 - lr * reg) ^ 2 + 2 * lr ^ 2)

/-- What one sample can add to the energy. -/
noncomputable def bprGain (lr : ℝ) : ℝ := 4 / 3 * lr + 4 * lr ^ 2

/-- A sample that is ranked right by far has a small gradient. -/
theorem score_mul_sig (s : ℝ) : bprSig s * s ≤ 1 / 3 := by
  unfold bprSig
  have hp := Real.exp_pos s
  rw [one_div, inv_mul_le_iff₀ (by positivity)]
  rcases le_total s 0 with h | h
  · nlinarith
  · have := Real.quadratic_le_exp_of_nonneg h
    nlinarith [sq_nonneg (s - 2)]

theorem coord_distinct (p q u l k : ℝ) :
    (p * u + q * (l - k)) ^ 2 + (p * l + q * u) ^ 2 + (p * k - q * u) ^ 2 ≤
      (p ^ 2 + 2 * q ^ 2) * (u ^ 2 + l ^ 2 + k ^ 2) + 4 * p * q * (u * (l - k)) := by
  nlinarith [mul_nonneg (sq_nonneg q) (sq_nonneg (l + k))]

theorem alias_coeffs {p q lr : ℝ} (hp0 : 0 ≤ p) (hp1 : p ≤ 1) (hq0 : 0 ≤ q) (hq : q ≤ lr) :
    p ^ 2 + (1 - p) ^ 2 * q ^ 2 + p ^ 2 * (1 - p) * q ≤ max 1 (p ^ 2 + 2 * lr ^ 2) ∧
      p ^ 4 + p ^ 2 * (1 - p) * q ≤ max 1 (p ^ 2 + 2 * lr ^ 2) := by
  have hp2 : p ^ 2 ≤ 1 := by nlinarith
  have hp2' : p ^ 2 ≤ p := by nlinarith
  rcases le_total q 1 with h | h
  · have hq2 : q ^ 2 ≤ 1 := by nlinarith
    have ha : 0 ≤ 1 - p := by linarith
    have e1 : (1 - p) ^ 2 * q ^ 2 ≤ (1 - p) ^ 2 := by nlinarith [sq_nonneg (1 - p)]
    have e2 : p ^ 2 * (1 - p) * q ≤ p ^ 2 * (1 - p) := by
      have : 0 ≤ p ^ 2 * (1 - p) := by positivity
      nlinarith
    constructor
    · refine le_trans ?_ (le_max_left _ _)
      nlinarith [mul_nonneg hp0 ha, mul_nonneg (mul_nonneg hp0 ha) hp0]
    · refine le_trans ?_ (le_max_left _ _)
      have : p ^ 4 ≤ p ^ 2 * p := by nlinarith [sq_nonneg p]
      nlinarith
  · have hq2 : q ≤ q ^ 2 := by nlinarith
    have hl : q ^ 2 ≤ lr ^ 2 := by nlinarith
    have ha : 0 ≤ 1 - p := by linarith
    have e1 : (1 - p) ^ 2 * q ^ 2 ≤ q ^ 2 := by
      have : (1 - p) ^ 2 ≤ 1 := by nlinarith
      nlinarith [sq_nonneg q]
    have e2 : p ^ 2 * (1 - p) * q ≤ q := by
      have : p ^ 2 * (1 - p) ≤ 1 := by nlinarith [mul_nonneg (sq_nonneg p) hp0]
      nlinarith
    constructor
    · refine le_trans ?_ (le_max_right _ _)
      linarith
    · refine le_trans ?_ (le_max_right _ _)
      have : p ^ 4 ≤ p ^ 2 := by nlinarith [sq_nonneg p]
      nlinarith [sq_nonneg q]

theorem coord_alias {p q lr : ℝ} (hp0 : 0 ≤ p) (hp1 : p ≤ 1) (hq0 : 0 ≤ q) (hq : q ≤ lr) (u l : ℝ) :
    (p * u) ^ 2 + (p ^ 2 * l - (1 - p) * q * u) ^ 2 ≤ max 1 (p ^ 2 + 2 * lr ^ 2) * (u ^ 2 + l ^ 2) := by
  obtain ⟨h1, h2⟩ := alias_coeffs hp0 hp1 hq0 hq
  generalize max 1 (p ^ 2 + 2 * lr ^ 2) = G at h1 h2
  have hc : 0 ≤ p ^ 2 * (1 - p) * q := by
    have : 0 ≤ 1 - p := by linarith
    positivity
  nlinarith [mul_nonneg hc (sq_nonneg (u + l)), mul_le_mul_of_nonneg_right h1 (sq_nonneg u),
    mul_le_mul_of_nonneg_right h2 (sq_nonneg l)]

theorem bias_alias {p q lr : ℝ} (hp0 : 0 ≤ p) (hp1 : p ≤ 1) (hq0 : 0 ≤ q) (hq : q ≤ lr) (b : ℝ) :
    2 * (p ^ 2 * b - (1 - p) * q) ^ 2 ≤ max 1 (p ^ 2 + 2 * lr ^ 2) * (2 * b ^ 2) + bprGain lr := by
  obtain ⟨h1, h2⟩ := alias_coeffs hp0 hp1 hq0 hq
  unfold bprGain
  generalize max 1 (p ^ 2 + 2 * lr ^ 2) = G at h1 h2
  have ha : 0 ≤ 1 - p := by linarith
  have hc : 0 ≤ p ^ 2 * (1 - p) * q := by positivity
  have e1 : p ^ 2 * (1 - p) * q ≤ q / 4 := by
    have : p ^ 2 * (1 - p) ≤ 1 / 4 := by nlinarith [sq_nonneg (2 * p - 1), mul_nonneg hp0 ha]
    nlinarith
  have e2 : (1 - p) ^ 2 * q ^ 2 ≤ lr ^ 2 := by
    have : (1 - p) ^ 2 ≤ 1 := by nlinarith
    have : q ^ 2 ≤ lr ^ 2 := by nlinarith
    nlinarith [sq_nonneg q]
  have e3 := mul_nonneg hc (sq_nonneg (b + 1))
  have e4 := mul_le_mul_of_nonneg_right h2 (sq_nonneg b)
  nlinarith

/-! ## Sums that change in one or two places -/

theorem sum_change_one {S : Finset Nat} {a a' : Nat → ℝ} {k : Nat} (hk : k ∈ S) (h : ∀ i, i ≠ k → a' i = a i) :
    ∑ i ∈ S, a' i = ∑ i ∈ S, a i + (a' k - a k) := by
  have : ∑ i ∈ S, (a' i - a i) = a' k - a k :=
    Finset.sum_eq_single_of_mem k hk fun i _ hi => by rw [h i hi, sub_self]
  rw [Finset.sum_sub_distrib] at this
  linarith

theorem sum_change_two {S : Finset Nat} {a a' : Nat → ℝ} {k l : Nat} (hk : k ∈ S) (hl : l ∈ S) (hkl : k ≠ l)
    (h : ∀ i, i ≠ k → i ≠ l → a' i = a i) :
    ∑ i ∈ S, a' i = ∑ i ∈ S, a i + (a' k - a k) + (a' l - a l) := by
  have : ∑ i ∈ S, (a' i - a i) = (a' k - a k) + (a' l - a l) :=
    Finset.sum_eq_add_of_mem k l hk hl hkl fun i _ hi => by rw [h i hi.1 hi.2, sub_self]
  rw [Finset.sum_sub_distrib] at this
  linarith

/-! ## One update -/

/-- The memory after the update of the first `n` coordinates of a sample with one item twice. -/
def bprAliasMem (lr reg z : ℝ) (t : BprTriple) (n : Nat) (m : BprCell → ℝ) : BprCell → ℝ
  | .user u j =>
    if u = t.user ∧ j < n then
      m (.user u j) + lr * (z * (m (.item t.liked j) - m (.item t.liked j)) - reg * m (.user u j))
    else m (.user u j)
  | .item i j =>
    if i = t.liked ∧ j < n then
      (m (.item i j) + lr * (z * m (.user t.user j) - reg * m (.item i j))) +
        lr * (-z * m (.user t.user j) - reg * (m (.item i j) + lr * (z * m (.user t.user j) - reg * m (.item i j))))
    else m (.item i j)

theorem bpr_alias_loop (sig : ℝ → ℝ) (lr reg : ℝ) (t : BprTriple) (heq : t.disliked = t.liked)
    (n : Nat) (s : BprScratch ℝ) (m : BprCell → ℝ) :
    let r := runInstrs (bprAct sig lr reg) ((List.range n).flatMap (bprUpdateRound t)) s m
    r.2 = bprAliasMem lr reg s.z t n m ∧ r.1.z = s.z := by
  induction n with
  | zero =>
    refine ⟨?_, rfl⟩
    funext c
    cases c <;> simp [bprAliasMem, runInstrs]
  | succ n ih =>
    intro r
    obtain ⟨h1, h2⟩ := ih
    set s1 := (runInstrs (bprAct sig lr reg) ((List.range n).flatMap (bprUpdateRound t)) s m).1
    have hr : r = runInstrs (bprAct sig lr reg) (bprUpdateRound t n) s1 (bprAliasMem lr reg s.z t n m) := by
      show runInstrs _ _ _ _ = _
      rw [List.range_succ, List.flatMap_append, run_append, h1]
      simp [s1]
    have eu : bprAliasMem lr reg s.z t n m (.user t.user n) = m (.user t.user n) := by simp [bprAliasMem]
    have el : bprAliasMem lr reg s.z t n m (.item t.liked n) = m (.item t.liked n) := by simp [bprAliasMem]
    rw [hr]
    refine ⟨?_, h2⟩
    simp only [bprUpdateRound, runInstrs, bprAct]
    simp only [Function.update, h2, eu, el, heq]
    funext c
    cases c with
    | user u j =>
      by_cases hu : u = t.user
      · subst hu
        rcases Nat.lt_trichotomy j n with hj | rfl | hj
        · have h3 : j ≠ n := by omega
          have h4 : j < n + 1 := by omega
          simp [bprAliasMem, hj, h3, h4]
        · simp [bprAliasMem]
        · have h3 : j ≠ n := by omega
          have h4 : ¬ j < n + 1 := by omega
          have h5 : ¬ j < n := by omega
          simp [bprAliasMem, h3, h4, h5]
      · simp [bprAliasMem, hu]
    | item i j =>
      rcases Nat.lt_trichotomy j n with hj | rfl | hj
      · have h3 : j ≠ n := by omega
        have h4 : j < n + 1 := by omega
        simp [bprAliasMem, hj, h3, h4]
      · by_cases hl : i = t.liked
        · subst hl
          simp [bprAliasMem]
        · simp [bprAliasMem, hl]
      · have h3 : j ≠ n := by omega
        have h4 : ¬ j < n + 1 := by omega
        have h5 : ¬ j < n := by omega
        simp [bprAliasMem, h3, h4, h5]

/-- The memory after one whole update with one item twice. -/
theorem bpr_alias_effect (sig : ℝ → ℝ) (lr reg : ℝ) (factors : Nat) (t : BprTriple)
    (heq : t.disliked = t.liked) (s : BprScratch ℝ) (m : BprCell → ℝ) :
    ∃ z, z = sig 0 ∧
    let m' := (runInstrs (bprAct sig lr reg) (bprUpdateProg factors t) s m).2
    (∀ j, j < factors → m' (.user t.user j) = (1 - lr * reg) * m (.user t.user j)) ∧
    (∀ j, j < factors → m' (.item t.liked j) = (1 - lr * reg) ^ 2 * m (.item t.liked j) -
      (1 - (1 - lr * reg)) * (lr * z) * m (.user t.user j)) ∧
    m' (.item t.liked factors) = (1 - lr * reg) ^ 2 * m (.item t.liked factors) -
      (1 - (1 - lr * reg)) * (lr * z) := by
  obtain ⟨h1, h2⟩ := bpr_score_loop sig lr reg t (factors + 1) { s with score := 0 } m
  set s1 := (runInstrs (bprAct sig lr reg)
    ((List.range (factors + 1)).flatMap (bprScoreRound t)) { s with score := 0 } m).1
  set s2 := (bprAct sig lr reg .logistic s1 m).1 with hs2
  have hz : s2.z = sig 0 := by
    show sig s1.score = sig 0
    rw [h2]
    simp [heq]
  refine ⟨sig 0, rfl, ?_⟩
  intro m'
  obtain ⟨h3, h4⟩ := bpr_alias_loop sig lr reg t heq factors s2 m
  set s3 := (runInstrs (bprAct sig lr reg) ((List.range factors).flatMap (bprUpdateRound t)) s2 m).1
  have hm' : m' = (runInstrs (bprAct sig lr reg)
      [.loadLiked t factors, .storeLikedBias t factors, .loadDisliked t factors,
        .storeDislikedBias t factors] s3 (bprAliasMem lr reg (sig 0) t factors m)).2 := by
    show (runInstrs _ (bprUpdateProg factors t) s m).2 = _
    unfold bprUpdateProg
    rw [run_append, run_append, run_append, run_append]
    have e0 : runInstrs (bprAct sig lr reg) [.zero] s m = ({ s with score := 0 }, m) := rfl
    rw [e0]
    dsimp only
    rw [h1]
    have e1 : runInstrs (bprAct sig lr reg) [.logistic] s1 m = (s2, m) := rfl
    rw [show (runInstrs (bprAct sig lr reg)
      ((List.range (factors + 1)).flatMap (bprScoreRound t)) { s with score := 0 } m).1 = s1 from rfl,
      e1]
    dsimp only
    rw [h3, hz]
  have hz3 : s3.z = sig 0 := h4.trans hz
  rw [hm']
  simp only [runInstrs, bprAct, Function.update, hz3, heq]
  refine ⟨fun j hj => ?_, fun j hj => ?_, ?_⟩
  · simp [bprAliasMem, hj]
    ring
  · have : j ≠ factors := by omega
    simp [bprAliasMem, hj, this]
    ring
  · simp [bprAliasMem]
    ring

/-- What an update leaves alone. -/
theorem bpr_update_frame (sig : ℝ → ℝ) (lr reg : ℝ) (factors : Nat) (t : BprTriple) (c : BprCell)
    (hu : ∀ j, j < factors → c ≠ .user t.user j) (hl : ∀ j, j ≤ factors → c ≠ .item t.liked j)
    (hd : ∀ j, j ≤ factors → c ≠ .item t.disliked j) (s : BprScratch ℝ) (m : BprCell → ℝ) :
    (runInstrs (bprAct sig lr reg) (bprUpdateProg factors t) s m).2 c = m c := by
  have : ∀ (l : List BprInstr), (∀ i ∈ l, i ∈ bprUpdateProg factors t) → ∀ s m,
      (runInstrs (bprAct sig lr reg) l s m).2 c = m c := by
    intro l
    induction l with
    | nil => intro _ s m; rfl
    | cons i l ih =>
      intro h s m
      unfold runInstrs
      rw [ih (fun i' hi' => h i' (by simp [hi'])),
        bprUpdateProg_frame sig lr reg factors t i (h i (by simp)) c hu hl hd]
  exact this _ (fun _ h => h) s m

section
variable {users items factors : Nat} {lr reg : ℝ}

theorem trainingEnergy_nonneg (m : BprCell → ℝ) : 0 ≤ trainingEnergy users items factors m := by
  unfold trainingEnergy
  positivity

/-- The arithmetic of one sample with two items. -/
theorem distinct_arith {p q S A B D A' B' D' b c : ℝ} (hp0 : 0 ≤ p) (hp1 : p ≤ 1) (hlr : 0 ≤ lr) (q0 : 0 ≤ q) (q1 : q ≤ lr)
    (hqs : q * S ≤ lr / 3) (hA : 0 ≤ A) (hB : 0 ≤ B) (hD : 0 ≤ D)
    (hs : A' + B' + D' ≤ (p ^ 2 + 2 * q ^ 2) * (A + B + D) + 4 * p * q * (S - (b - c))) :
    A' + (B' + 2 * (p * b + q) ^ 2) + (D' + 2 * (p * c - q) ^ 2) ≤
      (p ^ 2 + 2 * lr ^ 2) * (A + (B + 2 * b ^ 2) + (D + 2 * c ^ 2)) + bprGain lr := by
  have hpqs : p * (q * S) ≤ lr / 3 := by
    rcases le_total (q * S) 0 with h | h
    · have := mul_nonpos_of_nonneg_of_nonpos hp0 h
      linarith
    · have := mul_le_mul_of_nonneg_right hp1 h
      linarith
  have hq2 : q ^ 2 ≤ lr ^ 2 := pow_le_pow_left₀ q0 q1 2
  have h1 : (p ^ 2 + 2 * q ^ 2) * (A + B + D) ≤ (p ^ 2 + 2 * lr ^ 2) * (A + B + D) :=
    mul_le_mul_of_nonneg_right (by linarith) (by linarith)
  have h2 : 0 ≤ lr ^ 2 * (b ^ 2 + c ^ 2) := by positivity
  unfold bprGain
  linarith [show 4 * p * q * (S - (b - c)) + 2 * (p * b + q) ^ 2 + 2 * (p * c - q) ^ 2 =
    4 * (p * (q * S)) + 2 * p ^ 2 * (b ^ 2 + c ^ 2) + 4 * q ^ 2 by ring]

/-- **One sample**: the energy grows at most by the factor and the constant. -/
theorem update_energy (hlr : 0 ≤ lr) (ha0 : 0 ≤ lr * reg) (ha1 : lr * reg ≤ 1) (t : BprTriple) (hu : t.user < users)
    (hl : t.liked < items) (hd : t.disliked < items) (s : BprScratch ℝ) (m : BprCell → ℝ)
    (hone : m (.user t.user factors) = 1) :
    trainingEnergy users items factors (runInstrs (bprAct bprSig lr reg) (bprUpdateProg factors t) s m).2 ≤
      bprGrowth lr reg * trainingEnergy users items factors m + bprGain lr := by
  have hframe := bpr_update_frame bprSig lr reg factors t
  set p := 1 - lr * reg with hp
  have hp0 : 0 ≤ p := by linarith
  have hp1 : p ≤ 1 := by linarith
  have hG1 : 1 ≤ bprGrowth lr reg := le_max_left _ _
  -- energies of the rows
  let uE : (BprCell → ℝ) → Nat → ℝ := fun m u => ∑ j ∈ Finset.range factors, m (.user u j) ^ 2
  let iE : (BprCell → ℝ) → Nat → ℝ := fun m i => ∑ j ∈ Finset.range factors, m (.item i j) ^ 2 + 2 * m (.item i factors) ^ 2
  have hE : ∀ m, trainingEnergy users items factors m =
      ∑ u ∈ Finset.range users, uE m u + ∑ i ∈ Finset.range items, iE m i := fun m => rfl
  have uE0 : ∀ m u, 0 ≤ uE m u := fun m u => Finset.sum_nonneg fun j _ => sq_nonneg _
  have iE0 : ∀ m i, 0 ≤ iE m i := fun m i => by
    have : 0 ≤ ∑ j ∈ Finset.range factors, m (.item i j) ^ 2 := Finset.sum_nonneg fun j _ => sq_nonneg _
    have := sq_nonneg (m (.item i factors))
    simp only [iE]
    linarith
  set m' := (runInstrs (bprAct bprSig lr reg) (bprUpdateProg factors t) s m).2 with hm'
  have huser : ∀ u, u ≠ t.user → uE m' u = uE m u := by
    intro u hne
    refine Finset.sum_congr rfl fun j _ => ?_
    rw [hm', hframe (.user u j) (fun j' _ h => hne (by cases h; rfl)) (by simp) (by simp)]
  have hitem : ∀ i, i ≠ t.liked → i ≠ t.disliked → iE m' i = iE m i := by
    intro i h1 h2
    have : ∀ j, m' (.item i j) = m (.item i j) := fun j => by
      rw [hm', hframe (.item i j) (by simp) (fun j' _ h => h1 (by cases h; rfl)) (fun j' _ h => h2 (by cases h; rfl))]
    simp only [iE, this]
  have hu' := sum_change_one (S := Finset.range users) (Finset.mem_range.mpr hu) huser
  have hsu : uE m t.user ≤ ∑ u ∈ Finset.range users, uE m u :=
    Finset.single_le_sum (f := uE m) (fun u _ => uE0 m u) (Finset.mem_range.mpr hu)
  rw [hE, hE, hu']
  by_cases heq : t.disliked = t.liked
  · obtain ⟨z, hz, e1, e2, e3⟩ := bpr_alias_effect bprSig lr reg factors t heq s m
    have hi' := sum_change_one (S := Finset.range items) (a := iE m) (a' := iE m') (Finset.mem_range.mpr hl)
      (fun i hi => hitem i hi (by rw [heq]; exact hi))
    rw [hi']
    have hsi : iE m t.liked ≤ ∑ i ∈ Finset.range items, iE m i :=
      Finset.single_le_sum (f := iE m) (fun i _ => iE0 m i) (Finset.mem_range.mpr hl)
    obtain ⟨-, -, z0, z1, -⟩ := C37_bpr_sig 0
    rw [← hz] at z0 z1
    have q0 : 0 ≤ lr * z := by positivity
    have q1 : lr * z ≤ lr := by nlinarith
    have key : uE m' t.user + iE m' t.liked ≤ bprGrowth lr reg * (uE m t.user + iE m t.liked) + bprGain lr := by
      have hb := bias_alias hp0 hp1 q0 q1 (m (.item t.liked factors))
      have hs : ∑ j ∈ Finset.range factors, (m' (.user t.user j) ^ 2 + m' (.item t.liked j) ^ 2) ≤
          ∑ j ∈ Finset.range factors, bprGrowth lr reg * (m (.user t.user j) ^ 2 + m (.item t.liked j) ^ 2) := by
        refine Finset.sum_le_sum fun j hj => ?_
        have hj := Finset.mem_range.mp hj
        rw [hm', e1 j hj, e2 j hj]
        exact coord_alias hp0 hp1 q0 q1 _ _
      rw [← Finset.mul_sum, Finset.sum_add_distrib, Finset.sum_add_distrib] at hs
      simp only [uE, iE]
      rw [show m' (.item t.liked factors) = _ from e3]
      unfold bprGrowth at hs ⊢
      rw [← hp] at hs ⊢
      linarith
    nlinarith
  · have hne : t.liked ≠ t.disliked := fun h => heq h.symm
    obtain ⟨e1, e2, e3, e4, e5, -⟩ := bpr_update_effect bprSig lr reg factors t hne s m
    have hi' := sum_change_two (S := Finset.range items) (a := iE m) (a' := iE m') (Finset.mem_range.mpr hl)
      (Finset.mem_range.mpr hd) hne hitem
    rw [hi']
    have hsi : iE m t.liked + iE m t.disliked ≤ ∑ i ∈ Finset.range items, iE m i := by
      rw [← Finset.sum_pair (f := iE m) hne]
      refine Finset.sum_le_sum_of_subset_of_nonneg ?_ fun i _ _ => iE0 m i
      intro i hi
      rcases Finset.mem_insert.mp hi with rfl | hi
      · exact Finset.mem_range.mpr hl
      · rw [Finset.mem_singleton.mp hi]
        exact Finset.mem_range.mpr hd
    set S := ∑ j ∈ Finset.range (factors + 1),
      m (.user t.user j) * (m (.item t.liked j) - m (.item t.disliked j)) with hS
    obtain ⟨-, -, z0, z1, -⟩ := C37_bpr_sig S
    have hzs := score_mul_sig S
    set z := bprSig S with hz
    set q := lr * z with hq
    have q0 : 0 ≤ q := by positivity
    have q1 : q ≤ lr := by rw [hq]; nlinarith
    have key : uE m' t.user + iE m' t.liked + iE m' t.disliked ≤
        (p ^ 2 + 2 * lr ^ 2) * (uE m t.user + iE m t.liked + iE m t.disliked) + bprGain lr := by
      have hs : ∑ j ∈ Finset.range factors, (m' (.user t.user j) ^ 2 + m' (.item t.liked j) ^ 2 + m' (.item t.disliked j) ^ 2) ≤
          ∑ j ∈ Finset.range factors, ((p ^ 2 + 2 * q ^ 2) *
            (m (.user t.user j) ^ 2 + m (.item t.liked j) ^ 2 + m (.item t.disliked j) ^ 2) +
            4 * p * q * (m (.user t.user j) * (m (.item t.liked j) - m (.item t.disliked j)))) := by
        refine Finset.sum_le_sum fun j hj => ?_
        have hj := Finset.mem_range.mp hj
        rw [hm', e1 j hj, e2 j hj, e3 j hj]
        refine le_trans (le_of_eq ?_) (coord_distinct p q _ _ _)
        rw [hp, hq]
        ring
      simp only [Finset.sum_add_distrib, ← Finset.mul_sum] at hs
      have hS' : ∑ j ∈ Finset.range factors, m (.user t.user j) * (m (.item t.liked j) - m (.item t.disliked j)) =
          S - (m (.item t.liked factors) - m (.item t.disliked factors)) := by
        rw [hS, Finset.sum_range_succ, hone]
        ring
      rw [hS'] at hs
      have hb4 : m' (.item t.liked factors) = p * m (.item t.liked factors) + q := by
        rw [hm', e4, hp, hq]; ring
      have hb5 : m' (.item t.disliked factors) = p * m (.item t.disliked factors) - q := by
        rw [hm', e5, hp, hq]; ring
      simp only [uE, iE, hb4, hb5]
      exact distinct_arith hp0 hp1 hlr q0 q1 (by rw [hq, mul_assoc, mul_comm z]; nlinarith) (uE0 m t.user)
        (Finset.sum_nonneg fun j _ => sq_nonneg _) (Finset.sum_nonneg fun j _ => sq_nonneg _) hs
    have hG : p ^ 2 + 2 * lr ^ 2 ≤ bprGrowth lr reg := le_max_right _ _
    have n0 : 0 ≤ uE m t.user + iE m t.liked + iE m t.disliked := by
      have := uE0 m t.user
      have := iE0 m t.liked
      have := iE0 m t.disliked
      linarith
    have h3 := mul_le_mul_of_nonneg_right hG n0
    have h4 : (bprGrowth lr reg - 1) * (uE m t.user + iE m t.liked + iE m t.disliked) ≤
        (bprGrowth lr reg - 1) * (∑ u ∈ Finset.range users, uE m u + ∑ i ∈ Finset.range items, iE m i) :=
      mul_le_mul_of_nonneg_left (by linarith) (by linarith)
    linarith

/-- The samples of one thread, one after the other. -/
theorem samples_energy (hlr : 0 ≤ lr) (ha0 : 0 ≤ lr * reg) (ha1 : lr * reg ≤ 1) (verify : Bool) (matrix : List (List Nat))
    (hu : matrix.length ≤ users) (hcols : ∀ u i, Likes matrix u i → i < items) :
    ∀ (ds : List (Nat × Nat)), (∀ d ∈ ds, d.1 < nnz matrix ∧ d.2 < nnz matrix) → ∀ (s : BprScratch ℝ) (m : BprCell → ℝ),
      (∀ u, u < users → m (.user u factors) = 1) →
      let m' := (runInstrs (bprAct bprSig lr reg) (ds.flatMap (bprProg verify (bprRows verify matrix) factors)) s m).2
      (∀ u, u < users → m' (.user u factors) = 1) ∧
      trainingEnergy users items factors m' ≤
        bprGrowth lr reg ^ ds.length * (trainingEnergy users items factors m + ds.length * bprGain lr)
  | [], _, s, m, hone => by
    refine ⟨hone, ?_⟩
    simp [runInstrs]
  | d :: ds, hds, s, m, hone => by
    intro m'
    have hG1 : 1 ≤ bprGrowth lr reg := le_max_left _ _
    have hg0 : 0 ≤ bprGain lr := by unfold bprGain; positivity
    have hE0 := trainingEnergy_nonneg (users := users) (items := items) (factors := factors) m
    have hm' : m' = (runInstrs (bprAct bprSig lr reg) (ds.flatMap (bprProg verify (bprRows verify matrix) factors))
        (runInstrs (bprAct bprSig lr reg) (bprProg verify (bprRows verify matrix) factors d) s m).1
        (runInstrs (bprAct bprSig lr reg) (bprProg verify (bprRows verify matrix) factors d) s m).2).2 := by
      show (runInstrs _ _ s m).2 = _
      rw [List.flatMap_cons, run_append]
    have hstep : (∀ u, u < users →
        (runInstrs (bprAct bprSig lr reg) (bprProg verify (bprRows verify matrix) factors d) s m).2 (.user u factors) = 1) ∧
        trainingEnergy users items factors
          (runInstrs (bprAct bprSig lr reg) (bprProg verify (bprRows verify matrix) factors d) s m).2 ≤
          bprGrowth lr reg * trainingEnergy users items factors m + bprGain lr := by
      obtain ⟨h1, h2⟩ := hds d (by simp)
      obtain ⟨u, i, j, hs, ⟨u', hs'⟩, h | h⟩ := C35_choice verify matrix d.1 d.2 h1 h2
      · unfold bprProg
        rw [h.1]
        refine ⟨hone, ?_⟩
        show trainingEnergy users items factors m ≤ _
        nlinarith
      · unfold bprProg
        rw [h.1]
        have huu : u < users := by
          obtain ⟨r, hr, _⟩ := hs
          exact lt_of_lt_of_le (List.getElem?_eq_some_iff.mp hr).1 hu
        refine ⟨fun v hv => ?_, update_energy hlr ha0 ha1 ⟨u, i, j⟩ huu (hcols _ _ hs) (hcols _ _ hs') s m (hone u huu)⟩
        rw [bpr_update_frame bprSig lr reg factors ⟨u, i, j⟩ (.user v factors)
          (fun j hj h => by cases h; exact lt_irrefl _ hj) (by simp) (by simp)]
        exact hone v hv
    obtain ⟨hone', hstep⟩ := hstep
    obtain ⟨r1, r2⟩ := samples_energy hlr ha0 ha1 verify matrix hu hcols ds (fun d' h' => hds d' (by simp [h'])) _ _ hone'
    rw [hm']
    refine ⟨r1, le_trans r2 ?_⟩
    have hpow : 0 ≤ bprGrowth lr reg ^ ds.length := by positivity
    rw [List.length_cons, pow_succ, mul_assoc]
    refine mul_le_mul_of_nonneg_left ?_ hpow
    push_cast
    have h1 : (0 : ℝ) ≤ (ds.length + 1) * bprGain lr := by positivity
    nlinarith

/-- One thread runs its instructions in order. -/
theorem exec_unique {Th I Sc Addr V : Type} [DecidableEq Th] [Unique Th] {act : Act I Sc Addr V} (w : List (Th × I)) :
    ∀ (σ : Th → Sc) (m : Addr → V), (execInterleaved act w σ m).2 = (runInstrs act (streamOf default w) (σ default) m).2 := by
  induction w with
  | nil => intro σ m; rfl
  | cons p w ih =>
    intro σ m
    obtain ⟨t, i⟩ := p
    have ht : t = default := Unique.eq_default t
    subst ht
    have hs : streamOf default ((default, i) :: w) = i :: streamOf (default : Th) w := by simp [streamOf]
    unfold execInterleaved
    rw [ih, hs, runInstrs, Function.update_self]

/-- **C96** (`fit` of BPR with one thread): with a learning rate of at least 0 and a product of learning rate and
regularisation between 0 and 1, the energy after `k` epochs is at most `G ^ n (E + n g)`, where `n` is the number of samples
drawn (`k` times the number of stored entries), `E` the initial energy, `G = max 1 ((1 - lr reg)² + 2 lr²)` and
`g = 4/3 lr + 4 lr²`; whatever the samples are. -/
theorem C96_energy {Th : Type} [DecidableEq Th] [Unique Th] [Fintype Th] (hlr : 0 ≤ lr) (ha0 : 0 ≤ lr * reg)
    (ha1 : lr * reg ≤ 1) (verify : Bool) (matrix : List (List Nat)) (hu : matrix.length ≤ users)
    (hcols : ∀ u i, Likes matrix u i → i < items) (σ : Th → BprScratch ℝ) :
    ∀ (epochs : List (BprEpoch Th)), (∀ e ∈ epochs, e.Valid verify (bprRows verify matrix) factors) →
      ∀ (m : BprCell → ℝ), (∀ u, u < users → m (.user u factors) = 1) →
      trainingEnergy users items factors (bprEpochs bprSig lr reg σ epochs m) ≤
        bprGrowth lr reg ^ (epochs.length * nnz matrix) *
          (trainingEnergy users items factors m + (epochs.length * nnz matrix : Nat) * bprGain lr)
  | [], _, m, _ => by simp [bprEpochs]
  | e :: es, he, m, hone => by
    have hv := he e (by simp)
    have hlen : (e.draws default).length = nnz matrix := by
      have := hv.samples
      rw [Fintype.sum_unique, bprRows_nnz] at this
      exact this
    have hstep := samples_energy (factors := factors) hlr ha0 ha1 verify matrix hu hcols (e.draws default)
      (fun d hd => by have := hv.draws default d hd; rwa [bprRows_nnz] at this) (σ default).fresh m hone
    have hrun : (bprEpoch bprSig lr reg σ e m).2 = (runInstrs (bprAct bprSig lr reg)
        ((e.draws default).flatMap (bprProg verify (bprRows verify matrix) factors)) (σ default).fresh m).2 := by
      unfold bprEpoch
      rw [exec_unique, hv.schedule default]
    simp only [← hrun, hlen] at hstep
    obtain ⟨hone', hE⟩ := hstep
    have ih := C96_energy hlr ha0 ha1 verify matrix hu hcols σ es (fun e' h' => he e' (by simp [h'])) _ hone'
    unfold bprEpochs
    refine le_trans ih ?_
    have hG1 : 1 ≤ bprGrowth lr reg := le_max_left _ _
    have hg0 : 0 ≤ bprGain lr := by unfold bprGain; positivity
    have hE0 := trainingEnergy_nonneg (users := users) (items := items) (factors := factors) m
    rw [List.length_cons, Nat.succ_mul, pow_add, mul_assoc]
    refine mul_le_mul_of_nonneg_left ?_ (by positivity)
    push_cast
    have hP : 1 ≤ bprGrowth lr reg ^ nnz matrix := one_le_pow₀ hG1
    have h1 : (0 : ℝ) ≤ (es.length * nnz matrix : ℝ) * bprGain lr := by positivity
    have h2 := mul_le_mul_of_nonneg_right hP h1
    nlinarith

/-- No factor exceeds the root of the energy. -/
theorem within_of_energy {b : ℝ} (hb : 0 ≤ b) (m : BprCell → ℝ) (h : trainingEnergy users items factors m ≤ b ^ 2) :
    FactorsWithin users items factors b m := by
  have hi0 : ∀ i, 0 ≤ ∑ j ∈ Finset.range factors, m (.item i j) ^ 2 := fun i => Finset.sum_nonneg fun j _ => sq_nonneg _
  have hI : ∀ i, 0 ≤ ∑ j ∈ Finset.range factors, m (.item i j) ^ 2 + 2 * m (.item i factors) ^ 2 := fun i => by
    have := hi0 i
    positivity
  have hu0 : ∀ u, 0 ≤ ∑ j ∈ Finset.range factors, m (.user u j) ^ 2 := fun u => Finset.sum_nonneg fun j _ => sq_nonneg _
  have hUs : 0 ≤ ∑ u ∈ Finset.range users, ∑ j ∈ Finset.range factors, m (.user u j) ^ 2 := Finset.sum_nonneg fun u _ => hu0 u
  have hIs : 0 ≤ ∑ i ∈ Finset.range items, (∑ j ∈ Finset.range factors, m (.item i j) ^ 2 + 2 * m (.item i factors) ^ 2) :=
    Finset.sum_nonneg fun i _ => hI i
  unfold trainingEnergy at h
  constructor
  · intro u hu j hj
    refine abs_le_of_sq_le_sq ?_ hb
    have h1 := Finset.single_le_sum (f := fun u => ∑ j ∈ Finset.range factors, m (.user u j) ^ 2) (fun u _ => hu0 u)
      (Finset.mem_range.mpr hu)
    have h2 := Finset.single_le_sum (f := fun j => m (.user u j) ^ 2) (fun j _ => sq_nonneg _) (Finset.mem_range.mpr hj)
    linarith
  · intro i hi j hj
    refine abs_le_of_sq_le_sq ?_ hb
    have h1 := Finset.single_le_sum
      (f := fun i => ∑ j ∈ Finset.range factors, m (.item i j) ^ 2 + 2 * m (.item i factors) ^ 2) (fun i _ => hI i)
      (Finset.mem_range.mpr hi)
    have h3 := sq_nonneg (m (.item i factors))
    have h4 := hi0 i
    rcases Nat.lt_or_eq_of_le hj with hj | rfl
    · have h2 := Finset.single_le_sum (f := fun j => m (.item i j) ^ 2) (fun j _ => sq_nonneg _) (Finset.mem_range.mpr hj)
      linarith
    · linarith

/-- The energy of fresh factors. -/
theorem fresh_energy (hf : 0 < factors) (verify : Bool) (matrix : List (List Nat)) (randItem randUser : Nat → Nat → ℝ)
    (hi : ∀ i j, 0 ≤ randItem i j ∧ randItem i j ≤ 1) (hu : ∀ u j, 0 ≤ randUser u j ∧ randUser u j ≤ 1) :
    trainingEnergy users items factors (bprInit factors randItem randUser (bprRows verify matrix) none none) ≤
      (users + 3 * items) / 4 := by
  have hf' : (1 : ℝ) ≤ factors := by exact_mod_cast hf
  have hsq : ∀ r : ℝ, 0 ≤ r → r ≤ 1 → ((r - 1 / 2) / factors) ^ 2 ≤ 1 / (4 * (factors : ℝ) ^ 2) := by
    intro r h0 h1
    rw [div_pow, div_le_div_iff₀ (by positivity) (by positivity)]
    have : (r - 1 / 2) ^ 2 ≤ 1 / 4 := by nlinarith
    nlinarith [sq_nonneg (factors : ℝ)]
  have hpos : (0 : ℝ) ≤ 1 / (4 * (factors : ℝ) ^ 2) := by positivity
  have hitem : ∀ i j, (bprInit factors randItem randUser (bprRows verify matrix) none none (.item i j)) ^ 2 ≤
      1 / (4 * (factors : ℝ) ^ 2) := by
    intro i j
    simp only [bprInit, Option.getD_none, bprItemInit]
    split_ifs
    · simp
    · exact hsq _ (hi i j).1 (hi i j).2
  have huser : ∀ u j, j < factors → (bprInit factors randItem randUser (bprRows verify matrix) none none (.user u j)) ^ 2 ≤
      1 / (4 * (factors : ℝ) ^ 2) := by
    intro u j hj
    simp only [bprInit, Option.getD_none, bprUserInit]
    rw [if_neg (by omega)]
    split_ifs
    · simp
    · exact hsq _ (hu u j).1 (hu u j).2
  have hle : (factors : ℝ) * (1 / (4 * (factors : ℝ) ^ 2)) ≤ 1 / 4 := by
    rw [mul_one_div, div_le_div_iff₀ (by positivity) (by positivity)]
    nlinarith
  have hle1 : 1 / (4 * (factors : ℝ) ^ 2) ≤ 1 / 4 := by
    rw [div_le_div_iff₀ (by positivity) (by positivity)]
    nlinarith
  have h1 : ∑ u ∈ Finset.range users, ∑ j ∈ Finset.range factors,
      (bprInit factors randItem randUser (bprRows verify matrix) none none (.user u j)) ^ 2 ≤ users * (1 / 4) := by
    refine le_trans (Finset.sum_le_card_nsmul _ _ (1 / 4) fun u _ => ?_) (by simp)
    refine le_trans (Finset.sum_le_card_nsmul _ _ _ fun j hj => huser u j (Finset.mem_range.mp hj)) ?_
    simpa using hle
  have h2 : ∑ i ∈ Finset.range items, (∑ j ∈ Finset.range factors,
      (bprInit factors randItem randUser (bprRows verify matrix) none none (.item i j)) ^ 2 +
      2 * (bprInit factors randItem randUser (bprRows verify matrix) none none (.item i factors)) ^ 2) ≤
      (items : ℝ) * (3 / 4) := by
    refine le_trans (Finset.sum_le_card_nsmul _ _ (3 / 4) fun i _ => ?_) (by simp)
    have h3 : ∑ j ∈ Finset.range factors,
        (bprInit factors randItem randUser (bprRows verify matrix) none none (.item i j)) ^ 2 ≤ 1 / 4 :=
      le_trans (Finset.sum_le_card_nsmul _ _ _ fun j _ => hitem i j) (by simpa using hle)
    have := hitem i factors
    linarith
  unfold trainingEnergy
  linarith

/-- **C96** (`fit` from scratch with one thread): every factor is bounded by the square root of
`G ^ n ((users + 3 items) / 4 + n g)`. -/
theorem C96_fit {Th : Type} [DecidableEq Th] [Unique Th] [Fintype Th] (hf : 0 < factors) (hlr : 0 ≤ lr) (ha0 : 0 ≤ lr * reg)
    (ha1 : lr * reg ≤ 1) (verify : Bool) (matrix : List (List Nat))
    (hcols : ∀ u i, Likes matrix u i → i < items) (σ : Th → BprScratch ℝ) (randItem randUser : Nat → Nat → ℝ)
    (hi : ∀ i j, 0 ≤ randItem i j ∧ randItem i j ≤ 1) (hu : ∀ u j, 0 ≤ randUser u j ∧ randUser u j ≤ 1)
    (epochs : List (BprEpoch Th)) (he : ∀ e ∈ epochs, e.Valid verify (bprRows verify matrix) factors) :
    FactorsWithin matrix.length items factors
      (Real.sqrt (bprGrowth lr reg ^ (epochs.length * nnz matrix) *
        ((matrix.length + 3 * items) / 4 + (epochs.length * nnz matrix : Nat) * bprGain lr)))
      (bprFit bprSig lr reg verify factors randItem randUser matrix none none σ epochs) := by
  have hG1 : 1 ≤ bprGrowth lr reg := le_max_left _ _
  have hg0 : 0 ≤ bprGain lr := by unfold bprGain; positivity
  refine within_of_energy (Real.sqrt_nonneg _) _ ?_
  rw [Real.sq_sqrt (by positivity)]
  refine le_trans (C96_energy hlr ha0 ha1 verify matrix le_rfl hcols σ epochs he _
    fun u _ => (bprInit_conventions verify matrix factors randItem randUser).1 u) ?_
  refine mul_le_mul_of_nonneg_left ?_ (by positivity)
  have := fresh_energy (users := matrix.length) (items := items) hf verify matrix randItem randUser hi hu
  linarith

/-- Compound growth stays below the exponential. -/
theorem one_add_pow_le_exp (x : ℝ) (hx : 0 ≤ x) (n : Nat) : (1 + x) ^ n ≤ Real.exp (n * x) := by
  rw [Real.exp_nat_mul]
  refine pow_le_pow_left₀ (by linarith) ?_ _
  rw [add_comm]
  exact Real.add_one_le_exp x

/-- **C96** (default parameters, `learning_rate = regularization = 0.01`): a fit from scratch on at most a million users and a
million items with at most a hundred million samples in all ends with all factors below 2700. -/
theorem C96_defaults {Th : Type} [DecidableEq Th] [Unique Th] [Fintype Th] (hf : 0 < factors) (verify : Bool)
    (matrix : List (List Nat)) (hcols : ∀ u i, Likes matrix u i → i < items) (σ : Th → BprScratch ℝ)
    (randItem randUser : Nat → Nat → ℝ)
    (hi : ∀ i j, 0 ≤ randItem i j ∧ randItem i j ≤ 1) (hu : ∀ u j, 0 ≤ randUser u j ∧ randUser u j ≤ 1)
    (epochs : List (BprEpoch Th)) (he : ∀ e ∈ epochs, e.Valid verify (bprRows verify matrix) factors)
    (hU : matrix.length ≤ 1000000) (hI : items ≤ 1000000) (hT : epochs.length * nnz matrix ≤ 100000000) :
    FactorsWithin matrix.length items factors 2700
      (bprFit bprSig (1 / 100) (1 / 100) verify factors randItem randUser matrix none none σ epochs) := by
  have h := C96_fit (lr := 1 / 100) (reg := 1 / 100) hf (by norm_num) (by norm_num) (by norm_num) verify matrix hcols σ
    randItem randUser hi hu epochs he
  have hG : bprGrowth (1 / 100) (1 / 100) = 1 + 1 / 100000000 := by
    unfold bprGrowth
    rw [max_eq_right (by norm_num)]
    norm_num
  have hg : bprGain (1 / 100) ≤ 14 / 1000 := by
    unfold bprGain
    norm_num
  have hg0 : 0 ≤ bprGain (1 / 100) := by unfold bprGain; norm_num
  set n := epochs.length * nnz matrix with hn
  have hpow : bprGrowth (1 / 100) (1 / 100) ^ n ≤ 3 := by
    rw [hG]
    refine le_trans (one_add_pow_le_exp _ (by norm_num) n) (le_trans (b := Real.exp 1) (Real.exp_le_exp.mpr ?_) ?_)
    · have hn' : (n : ℝ) ≤ 100000000 := by exact_mod_cast hT
      linarith
    · exact le_of_lt Real.exp_one_lt_three
  have hle : Real.sqrt (bprGrowth (1 / 100) (1 / 100) ^ n * ((matrix.length + 3 * items) / 4 + (n : ℝ) * bprGain (1 / 100))) ≤ 2700 := by
    rw [Real.sqrt_le_left (by norm_num)]
    have hU' : (matrix.length : ℝ) ≤ 1000000 := by exact_mod_cast hU
    have hI' : (items : ℝ) ≤ 1000000 := by exact_mod_cast hI
    have hn' : (n : ℝ) ≤ 100000000 := by exact_mod_cast hT
    have hn0 : (0 : ℝ) ≤ n := by positivity
    have h1 : (n : ℝ) * bprGain (1 / 100) ≤ 1400000 := by nlinarith
    have h2 : (0 : ℝ) ≤ (matrix.length + 3 * items) / 4 + (n : ℝ) * bprGain (1 / 100) := by positivity
    nlinarith
  exact ⟨fun u hu j hj => le_trans (h.1 u hu j hj) hle, fun i hi j hj => le_trans (h.2 i hi j hj) hle⟩

end

/-! ## The condition on the parameters, and examples -/

/-- An epoch of a single thread with the given draws. -/
def oneThread (verify : Bool) (rows : List (List Nat)) (factors : Nat) (draws : List (Nat × Nat)) : BprEpoch Unit where
  draws _ := draws
  schedule := (draws.flatMap (bprProg verify rows factors)).map fun i => ((), i)

theorem oneThread_valid (verify : Bool) (rows : List (List Nat)) (factors : Nat) (draws : List (Nat × Nat))
    (h : ∀ d ∈ draws, d.1 < rows.flatten.length ∧ d.2 < rows.flatten.length) (hn : draws.length = rows.flatten.length) :
    (oneThread verify rows factors draws).Valid verify rows factors where
  schedule := by
    intro t
    have : ∀ l : List BprInstr, streamOf () (l.map fun i => ((), i)) = l := fun l => by
      simp [streamOf, Function.comp_def]
    exact this _
  draws := fun _ => h
  samples := by
    rw [Fintype.sum_unique]
    exact hn

/-- **C96** (the condition is needed): `fit` accepts any learning rate and regularisation, and with one user, one item and
`verify_negative_samples=False` each of the samples multiplies the factors of the user by `1 - lr reg`.  With
`lr reg > 2` they therefore exceed every bound after enough iterations. -/
theorem C96_needed (lr reg : ℝ) (h : 2 < lr * reg) (randItem randUser : Nat → Nat → ℝ) (hr : randUser 0 0 ≠ 1 / 2)
    (σ : Unit → BprScratch ℝ) (b : ℝ) :
    ∃ epochs : List (BprEpoch Unit), (∀ e ∈ epochs, e.Valid false (bprRows false [[0]]) 1) ∧
      ¬ FactorsWithin 1 1 1 b (bprFit bprSig lr reg false 1 randItem randUser [[0]] none none σ epochs) := by
  have hx : 0 < |randUser 0 0 - 1 / 2| := abs_pos.mpr (sub_ne_zero.mpr hr)
  obtain ⟨n, hn⟩ := pow_unbounded_of_one_lt (b / |randUser 0 0 - 1 / 2|) (show 1 < |1 - lr * reg| by
    rw [abs_of_neg (by linarith)]
    linarith)
  let e := oneThread false (bprRows false [[0]]) 1 [(0, 0)]
  refine ⟨List.replicate n e, fun e' he' => ?_, fun hw => ?_⟩
  · rw [List.eq_of_mem_replicate he']
    refine oneThread_valid _ _ _ _ ?_ rfl
    intro d hd
    rw [List.mem_singleton.mp hd]
    exact ⟨Nat.zero_lt_one, Nat.zero_lt_one⟩
  · have hstep : ∀ m : BprCell → ℝ, (bprEpoch bprSig lr reg σ e m).2 (.user 0 0) = (1 - lr * reg) * m (.user 0 0) := by
      intro m
      have h1 : (bprEpoch bprSig lr reg σ e m).2 =
          (runInstrs (bprAct bprSig lr reg) (bprUpdateProg 1 ⟨0, 0, 0⟩) (σ ()).fresh m).2 := by
        unfold bprEpoch
        rw [exec_unique]
        rfl
      rw [h1]
      obtain ⟨z, -, h2, -⟩ := bpr_alias_effect bprSig lr reg 1 ⟨0, 0, 0⟩ rfl (σ ()).fresh m
      exact h2 0 Nat.zero_lt_one
    have hall : ∀ (n : Nat) (m : BprCell → ℝ), bprEpochs bprSig lr reg σ (List.replicate n e) m (.user 0 0) =
        (1 - lr * reg) ^ n * m (.user 0 0) := by
      intro n
      induction n with
      | zero => intro m; simp [bprEpochs]
      | succ n ih =>
        intro m
        rw [List.replicate_succ, bprEpochs, ih, hstep, pow_succ, mul_assoc]
    have := hw.1 0 Nat.zero_lt_one 0 Nat.zero_lt_one
    unfold bprFit at this
    rw [hall, abs_mul, abs_pow] at this
    have hi : bprInit 1 randItem randUser (bprRows false [[0]]) none none (.user 0 0) = randUser 0 0 - 1 / 2 := by
      simp [bprInit, bprUserInit, bprRows]
    rw [hi] at this
    rw [div_lt_iff₀ hx] at hn
    linarith

/-- Two users, two items, default parameters, three epochs of two samples each. -/
example (σ : Unit → BprScratch ℝ) :
    FactorsWithin 2 2 4 2700 (bprFit bprSig (1 / 100) (1 / 100) true 4 (fun _ _ => 1) (fun _ _ => 0) [[0], [1]] none none σ
      (List.replicate 3 (oneThread true (bprRows true [[0], [1]]) 4 [(0, 1), (1, 0)]))) := by
  refine C96_defaults (by norm_num) true [[0], [1]] ?_ σ _ _ (by norm_num) (by norm_num) _ ?_ (by simp) (by norm_num)
    (by simp [nnz])
  · rintro u i ⟨r, hr, hi⟩
    match u, hr with
    | 0, hr => cases hr; rw [List.mem_singleton.mp hi]; norm_num
    | 1, hr => cases hr; rw [List.mem_singleton.mp hi]; norm_num
  · intro e he
    rw [List.eq_of_mem_replicate he]
    refine oneThread_valid _ _ _ _ ?_ ?_
    · have : (bprRows true [[0], [1]]).flatten.length = 2 := by decide +kernel
      rw [this]
      simp
    · decide +kernel

/-- The same with a learning rate of 3 and a regularisation of 1: no bound holds. -/
example (σ : Unit → BprScratch ℝ) : ∃ epochs : List (BprEpoch Unit),
    ¬ FactorsWithin 1 1 1 1000000 (bprFit bprSig 3 1 false 1 (fun _ _ => 0) (fun _ _ => 0) [[0]] none none σ epochs) := by
  obtain ⟨e, -, h⟩ := C96_needed 3 1 (by norm_num) (fun _ _ => 0) (fun _ _ => 0) (by norm_num) σ 1000000
  exact ⟨e, h⟩

end Implicit
