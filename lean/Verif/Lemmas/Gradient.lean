import Verif.Model.BPR
import Verif.Model.LMF
import Verif.Lemmas.Parallel
import Verif.Spec.Gradient
import Mathlib.Tactic.Ring
import Mathlib.Tactic.FieldSimp
import Mathlib.Tactic.Positivity
import Mathlib.Analysis.Calculus.Deriv.Add
import Mathlib.Analysis.Calculus.Deriv.Mul

set_option linter.unusedSectionVars false

namespace Implicit

variable {R : Type} [LinearOrder R] [Field R]

/-! ## What one BPR update computes -/

theorem bpr_score_loop (sig : R → R) (lr reg : R) (t : BprTriple) (n : Nat) (s : BprScratch R)
    (m : BprCell → R) :
    let r := runInstrs (bprAct sig lr reg) ((List.range n).flatMap (bprScoreRound t)) s m
    r.2 = m ∧ r.1.score = s.score + ∑ j ∈ Finset.range n,
      m (.user t.user j) * (m (.item t.liked j) - m (.item t.disliked j)) := by
  induction n with
  | zero => simp [runInstrs]
  | succ n ih =>
    intro r
    obtain ⟨h1, h2⟩ := ih
    have hr : r = runInstrs (bprAct sig lr reg) (bprScoreRound t n)
        (runInstrs (bprAct sig lr reg) ((List.range n).flatMap (bprScoreRound t)) s m).1 m := by
      show runInstrs _ _ _ _ = _
      rw [List.range_succ, List.flatMap_append, run_append, h1]
      simp
    rw [hr]
    refine ⟨rfl, ?_⟩
    rw [Finset.sum_range_succ, ← add_assoc, ← h2]
    rfl

/-- The memory after the update of the first `n` coordinates. -/
def bprMem (lr reg z : R) (t : BprTriple) (n : Nat) (m : BprCell → R) : BprCell → R
  | .user u j =>
    if u = t.user ∧ j < n then
      m (.user u j) + lr * (z * (m (.item t.liked j) - m (.item t.disliked j)) - reg * m (.user u j))
    else m (.user u j)
  | .item i j =>
    if i = t.liked ∧ j < n then
      m (.item i j) + lr * (z * m (.user t.user j) - reg * m (.item i j))
    else if i = t.disliked ∧ j < n then
      m (.item i j) + lr * (-z * m (.user t.user j) - reg * m (.item i j))
    else m (.item i j)

theorem bpr_update_loop (sig : R → R) (lr reg : R) (t : BprTriple) (hne : t.liked ≠ t.disliked)
    (n : Nat) (s : BprScratch R) (m : BprCell → R) :
    let r := runInstrs (bprAct sig lr reg) ((List.range n).flatMap (bprUpdateRound t)) s m
    r.2 = bprMem lr reg s.z t n m ∧ r.1.z = s.z := by
  induction n with
  | zero =>
    refine ⟨?_, rfl⟩
    funext c
    cases c <;> simp [bprMem, runInstrs]
  | succ n ih =>
    intro r
    obtain ⟨h1, h2⟩ := ih
    set s1 := (runInstrs (bprAct sig lr reg) ((List.range n).flatMap (bprUpdateRound t)) s m).1
    have hr : r = runInstrs (bprAct sig lr reg) (bprUpdateRound t n) s1 (bprMem lr reg s.z t n m) := by
      show runInstrs _ _ _ _ = _
      rw [List.range_succ, List.flatMap_append, run_append, h1]
      simp [s1]
    have eu : bprMem lr reg s.z t n m (.user t.user n) = m (.user t.user n) := by simp [bprMem]
    have el : bprMem lr reg s.z t n m (.item t.liked n) = m (.item t.liked n) := by simp [bprMem]
    have ed : bprMem lr reg s.z t n m (.item t.disliked n) = m (.item t.disliked n) := by
      simp [bprMem]
    rw [hr]
    refine ⟨?_, h2⟩
    have hne' : ¬ t.disliked = t.liked := fun h => hne h.symm
    simp only [bprUpdateRound, runInstrs, bprAct]
    simp only [Function.update, h2, eu, el, ed]
    funext c
    cases c with
    | user u j =>
      by_cases hu : u = t.user
      · subst hu
        rcases Nat.lt_trichotomy j n with hj | rfl | hj
        · have h3 : j ≠ n := by omega
          have h4 : j < n + 1 := by omega
          simp [bprMem, hj, h3, h4]
        · simp [bprMem]
        · have h3 : j ≠ n := by omega
          have h4 : ¬ j < n + 1 := by omega
          have h5 : ¬ j < n := by omega
          simp [bprMem, h3, h4, h5]
      · simp [bprMem, hu]
    | item i j =>
      rcases Nat.lt_trichotomy j n with hj | rfl | hj
      · have h3 : j ≠ n := by omega
        have h4 : j < n + 1 := by omega
        simp [bprMem, hj, h3, h4]
      · by_cases hl : i = t.liked
        · subst hl
          simp [bprMem, hne, hne']
        · by_cases hd : i = t.disliked
          · subst hd
            simp [bprMem, hne, hne']
          · simp [bprMem, hl, hd]
      · have h3 : j ≠ n := by omega
        have h4 : ¬ j < n + 1 := by omega
        have h5 : ¬ j < n := by omega
        simp [bprMem, h3, h4, h5]

/-- The memory after one whole update, for distinct items. -/
theorem bpr_update_effect (sig : R → R) (lr reg : R) (factors : Nat) (t : BprTriple)
    (hne : t.liked ≠ t.disliked) (s : BprScratch R) (m : BprCell → R) :
    let z := sig (∑ j ∈ Finset.range (factors + 1),
      m (.user t.user j) * (m (.item t.liked j) - m (.item t.disliked j)))
    let m' := (runInstrs (bprAct sig lr reg) (bprUpdateProg factors t) s m).2
    (∀ j, j < factors → m' (.user t.user j) = m (.user t.user j) +
      lr * (z * (m (.item t.liked j) - m (.item t.disliked j)) - reg * m (.user t.user j))) ∧
    (∀ j, j < factors → m' (.item t.liked j) = m (.item t.liked j) +
      lr * (z * m (.user t.user j) - reg * m (.item t.liked j))) ∧
    (∀ j, j < factors → m' (.item t.disliked j) = m (.item t.disliked j) +
      lr * (-z * m (.user t.user j) - reg * m (.item t.disliked j))) ∧
    m' (.item t.liked factors) = m (.item t.liked factors) +
      lr * (z - reg * m (.item t.liked factors)) ∧
    m' (.item t.disliked factors) = m (.item t.disliked factors) +
      lr * (-z - reg * m (.item t.disliked factors)) ∧
    m' (.user t.user factors) = m (.user t.user factors) := by
  intro z m'
  have hne' : ¬ t.disliked = t.liked := fun h => hne h.symm
  obtain ⟨h1, h2⟩ := bpr_score_loop sig lr reg t (factors + 1) { s with score := 0 } m
  set s1 := (runInstrs (bprAct sig lr reg)
    ((List.range (factors + 1)).flatMap (bprScoreRound t)) { s with score := 0 } m).1
  set s2 := (bprAct sig lr reg .logistic s1 m).1 with hs2
  have hz : s2.z = z := by
    show sig s1.score = z
    rw [h2]
    simp only [zero_add]
    rfl
  obtain ⟨h3, h4⟩ := bpr_update_loop sig lr reg t hne factors s2 m
  set s3 := (runInstrs (bprAct sig lr reg) ((List.range factors).flatMap (bprUpdateRound t)) s2 m).1
  have hm' : m' = (runInstrs (bprAct sig lr reg)
      [.loadLiked t factors, .storeLikedBias t factors, .loadDisliked t factors,
        .storeDislikedBias t factors] s3 (bprMem lr reg z t factors m)).2 := by
    show (runInstrs _ (bprUpdateProg factors t) s m).2 = _
    unfold bprUpdateProg
    rw [run_append, run_append, run_append, run_append]
    have e0 : runInstrs (bprAct sig lr reg) [.zero] s m = ({ s with score := 0 }, m) := rfl
    rw [e0]
    dsimp only
    rw [h1]
    have e1 : runInstrs (bprAct sig lr reg) [.logistic] s1 m = (s2, m) := rfl
    rw [show (runInstrs (bprAct sig lr reg)
      ((List.range (factors + 1)).flatMap (bprScoreRound t)) { s with score := 0 } m).1 = s1 from rfl,
      e1]
    dsimp only
    rw [h3, hz]
  have hz3 : s3.z = z := h4.trans hz
  rw [hm']
  simp only [runInstrs, bprAct, Function.update, hz3]
  refine ⟨fun j hj => ?_, fun j hj => ?_, fun j hj => ?_, ?_, ?_, ?_⟩
  · simp [bprMem, hj]
  · have : j ≠ factors := by omega
    simp [bprMem, hj, this]
  · have : j ≠ factors := by omega
    simp [bprMem, hj, this, hne, hne']
  · simp [bprMem, hne, hne']
  · simp [bprMem, hne, hne']
  · simp [bprMem]

/-! ## Derivatives -/

open Spec

theorem logistic_pos (x : ℝ) : 0 < logistic x := by
  unfold logistic; positivity

theorem hasDerivAt_log_logistic (x : ℝ) :
    HasDerivAt (fun y => Real.log (logistic y)) (1 / (1 + Real.exp x)) x := by
  have h1 : (fun y => Real.log (logistic y)) = fun y => -Real.log (1 + Real.exp (-y)) := by
    funext y
    unfold logistic
    rw [one_div, Real.log_inv]
  rw [h1]
  have h2 : HasDerivAt (fun y => 1 + Real.exp (-y)) (-Real.exp (-x)) x := by
    have := ((hasDerivAt_neg x).exp).const_add 1
    simpa using this
  have h3 := (h2.log (by positivity)).neg
  have hexp : Real.exp x * Real.exp (-x) = 1 := by rw [← Real.exp_add]; simp
  have he : 1 / (1 + Real.exp x) = -(-Real.exp (-x) / (1 + Real.exp (-x))) := by
    rw [← neg_div, neg_neg, div_eq_div_iff (by positivity) (by positivity)]
    linear_combination -hexp
  rw [he]
  exact h3

theorem hasDerivAt_log_one_add_exp (x : ℝ) :
    HasDerivAt (fun y => Real.log (1 + Real.exp y)) (logistic x) x := by
  have h2 : HasDerivAt (fun y => 1 + Real.exp y) (Real.exp x) x := (Real.hasDerivAt_exp x).const_add 1
  have h3 := h2.log (by positivity)
  have hexp : Real.exp x * Real.exp (-x) = 1 := by rw [← Real.exp_add]; simp
  have he : logistic x = Real.exp x / (1 + Real.exp x) := by
    unfold logistic
    rw [div_eq_div_iff (by positivity) (by positivity)]
    linear_combination -hexp
  rw [he]
  exact h3

end Implicit
