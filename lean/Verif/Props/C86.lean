import Verif.Spec.PairRanking
import Verif.Props.C37
import Verif.Props.C65
import Mathlib.Algebra.BigOperators.Field
/-!
# C86 — A training sample improves what it was drawn for

In exact real arithmetic.  One BPR sample executed without interference, the mean of a sample over its
random draws, and one LMF row.
-/

set_option linter.unusedSectionVars false

namespace Implicit

open Spec

/-- The factors in memory. -/
def rankFactors (n : Nat) (m : BprCell → ℝ) : RankFactors where
  user := fun u j => m (.user u j)
  item := fun i j => m (.item i j)
  bias := fun i => m (.item i n)

/-- The memory after the sample with the drawn positions `d` (`implicit/cpu/bpr.pyx:268-301`). -/
noncomputable def afterSample (lr reg : ℝ) (verify : Bool) (matrix : List (List Nat)) (n : Nat)
    (s : BprScratch ℝ) (m : BprCell → ℝ) (d : Nat × Nat) : BprCell → ℝ :=
  (runInstrs (bprAct bprSig lr reg) (bprProg verify (bprRows verify matrix) n d) s m).2

/-- The memory after the update for the rows `t` (`implicit/cpu/bpr.pyx:283-301`). -/
noncomputable def afterUpdate (lr reg : ℝ) (n : Nat) (s : BprScratch ℝ) (m : BprCell → ℝ)
    (t : BprTriple) : BprCell → ℝ :=
  (runInstrs (bprAct bprSig lr reg) (bprUpdateProg n t) s m).2

/-- The parameters of a triple. -/
def tripleParams (θ : RankFactors) (t : BprTriple) : BprParams where
  user := θ.user t.user
  liked := θ.item t.liked
  disliked := θ.item t.disliked
  likedBias := θ.bias t.liked
  dislikedBias := θ.bias t.disliked

/-- Parameters of a triple as a direction for all factors. -/
def spread (t : BprTriple) (g : BprParams) : RankFactors where
  user := fun u j => if u = t.user then g.user j else 0
  item := fun i j => (if i = t.liked then g.liked j else 0) + if i = t.disliked then g.disliked j else 0
  bias := fun i => (if i = t.liked then g.likedBias else 0) + if i = t.disliked then g.dislikedBias else 0

theorem margin_eq_lead (n : Nat) (θ : RankFactors) (t : BprTriple) :
    (tripleParams θ t).margin n = θ.lead n t.user t.liked t.disliked := by
  unfold BprParams.margin RankFactors.lead RankFactors.score tripleParams
  simp only [mul_sub, Finset.sum_sub_distrib]
  ring

theorem inner_eq_size (n : Nat) (θ : RankFactors) (t : BprTriple) :
    (tripleParams θ t).inner n (tripleParams θ t) = θ.size n t.user t.liked t.disliked := rfl

theorem tripleObjective_eq (n : Nat) (reg : ℝ) (θ : RankFactors) (t : BprTriple) :
    bprObjective n reg (tripleParams θ t) =
      Real.log (logistic (θ.lead n t.user t.liked t.disliked)) -
        reg / 2 * θ.size n t.user t.liked t.disliked := by
  unfold bprObjective
  rw [margin_eq_lead, inner_eq_size]

theorem spread_inner (users items n : Nat) (t : BprTriple) (hu : t.user < users) (hl : t.liked < items)
    (hd : t.disliked < items) (g : BprParams) (D : RankFactors) :
    (spread t g).inner users items n D = g.inner n (tripleParams D t) := by
  have hu' := Finset.mem_range.mpr hu
  have hl' := Finset.mem_range.mpr hl
  have hd' := Finset.mem_range.mpr hd
  unfold RankFactors.inner BprParams.inner spread tripleParams
  simp only [add_mul, Finset.sum_add_distrib, ite_mul, zero_mul]
  have e : ∀ (N k : Nat) (_ : k ∈ Finset.range N) (F : Nat → Nat → ℝ),
      (∑ u ∈ Finset.range N, ∑ j ∈ Finset.range n, if u = k then F u j else 0) =
        ∑ j ∈ Finset.range n, F k j := by
    intro N k hk F
    rw [Finset.sum_comm]
    exact Finset.sum_congr rfl fun j _ => by
      rw [Finset.sum_ite_eq' (Finset.range N) k (fun u => F u j), if_pos hk]
  rw [e users t.user hu', e items t.liked hl', e items t.disliked hd',
    Finset.sum_ite_eq' (Finset.range items) t.liked (fun i => g.likedBias * D.bias i), if_pos hl',
    Finset.sum_ite_eq' (Finset.range items) t.disliked (fun i => g.dislikedBias * D.bias i), if_pos hd']
  ring

/-! ## One update -/

/-- An update whose two items are the same changes nothing without regularisation. -/
theorem update_alias (lr : ℝ) (n : Nat) (t : BprTriple) (h : t.liked = t.disliked) (s : BprScratch ℝ)
    (m : BprCell → ℝ) : afterUpdate lr 0 n s m t = m := by
  have hround : ∀ (j : Nat) (s : BprScratch ℝ),
      (runInstrs (bprAct bprSig lr 0) (bprUpdateRound t j) s m).2 = m := by
    intro j s
    simp only [bprUpdateRound, runInstrs, bprAct, h]
    funext c
    by_cases h1 : c = .item t.disliked j
    · subst h1
      simp [Function.update]
    · by_cases h2 : c = .user t.user j
      · subst h2
        simp [Function.update]
      · simp [Function.update, h1, h2]
  have hloop : ∀ (l : List Nat) (s : BprScratch ℝ),
      (runInstrs (bprAct bprSig lr 0) (l.flatMap (bprUpdateRound t)) s m).2 = m := by
    intro l
    induction l with
    | nil => intro s; rfl
    | cons j l ih =>
      intro s
      rw [List.flatMap_cons, run_append, hround j s]
      exact ih _
  obtain ⟨h1, _⟩ := bpr_score_loop bprSig lr 0 t (n + 1) { s with score := 0 } m
  unfold afterUpdate bprUpdateProg
  rw [run_append, run_append, run_append, run_append]
  have e0 : runInstrs (bprAct bprSig lr 0) [.zero] s m = ({ s with score := 0 }, m) := rfl
  rw [e0]
  dsimp only
  rw [h1]
  have e1 : ∀ s1, (runInstrs (bprAct bprSig lr 0) [.logistic] s1 m).2 = m := fun _ => rfl
  rw [e1, hloop]
  simp only [runInstrs, bprAct, h]
  funext c
  by_cases h1 : c = .item t.disliked n
  · subst h1
    simp [Function.update]
  · simp [Function.update, h1]

/-- What an update does to all factors. -/
theorem update_effect (lr reg : ℝ) (n : Nat) (t : BprTriple) (hne : t.liked ≠ t.disliked ∨ reg = 0)
    (s : BprScratch ℝ) (m : BprCell → ℝ) (hone : m (.user t.user n) = 1) :
    let g := spread t (bprGradient n reg (tripleParams (rankFactors n m) t))
    let m' := afterUpdate lr reg n s m t
    (∀ u j, j < n → m' (.user u j) = m (.user u j) + lr * g.user u j) ∧
      (∀ i j, j < n → m' (.item i j) = m (.item i j) + lr * g.item i j) ∧
      (∀ i, m' (.item i n) = m (.item i n) + lr * g.bias i) ∧
      ∀ u, m' (.user u n) = m (.user u n) := by
  intro g m'
  by_cases hal : t.liked = t.disliked
  · have hreg : reg = 0 := hne.resolve_left fun h => h hal
    subst hreg
    have hm : m' = m := update_alias lr n t hal s m
    rw [hm]
    refine ⟨fun u j _ => ?_, fun i j _ => ?_, fun i => ?_, fun _ => rfl⟩
    · simp only [g, spread, bprGradient, tripleParams, hal]
      split <;> ring
    · simp only [g, spread, bprGradient, tripleParams, hal]
      split <;> ring
    · simp only [g, spread, bprGradient, tripleParams, hal]
      split <;> ring
  · have hal' : ¬ t.disliked = t.liked := fun h => hal h.symm
    obtain ⟨h1, h2, h3, h4, h5, h6⟩ := bpr_update_effect bprSig lr reg n t hal s m
    obtain ⟨_, _, _, _, _, _, _, hfr⟩ := C37_bpr lr reg n t hal s m hone
    have hmargin : (tripleParams (rankFactors n m) t).margin n = ∑ j ∈ Finset.range (n + 1),
        m (.user t.user j) * (m (.item t.liked j) - m (.item t.disliked j)) := by
      rw [Finset.sum_range_succ, hone, one_mul]
      rfl
    refine ⟨fun u j hj => ?_, fun i j hj => ?_, fun i => ?_, fun u => ?_⟩
    · by_cases hu : u = t.user
      · subst hu
        refine (h1 j hj).trans ?_
        simp only [g, spread, bprGradient, hmargin, if_true]
        rfl
      · refine (hfr (.user u j) (fun k _ => by simp [hu]) (fun k _ => by simp)
          (fun k _ => by simp)).trans ?_
        simp [g, spread, hu]
    · by_cases hl : i = t.liked
      · subst hl
        refine (h2 j hj).trans ?_
        simp only [g, spread, bprGradient, hmargin, if_true, if_neg hal, add_zero]
        rfl
      · by_cases hd : i = t.disliked
        · subst hd
          refine (h3 j hj).trans ?_
          simp only [g, spread, bprGradient, hmargin, if_true, if_neg hal', zero_add]
          rfl
        · refine (hfr (.item i j) (fun k _ => by simp) (fun k _ => by simp [hl])
            (fun k _ => by simp [hd])).trans ?_
          simp [g, spread, hl, hd]
    · by_cases hl : i = t.liked
      · subst hl
        refine h4.trans ?_
        simp only [g, spread, bprGradient, hmargin, if_true, if_neg hal, add_zero]
        rfl
      · by_cases hd : i = t.disliked
        · subst hd
          refine h5.trans ?_
          simp only [g, spread, bprGradient, hmargin, if_true, if_neg hal', zero_add]
          rfl
        · refine (hfr (.item i n) (fun k _ => by simp) (fun k _ => by simp [hl])
            (fun k _ => by simp [hd])).trans ?_
          simp [g, spread, hl, hd]
    · by_cases hu : u = t.user
      · subst hu; exact h6
      · exact hfr (.user u n) (fun k _ => by simp [hu]) (fun k _ => by simp) (fun k _ => by simp)

/-- The weight of the pull of a sample: the probability BPR gives to the wrong order. -/
theorem bprSig_eq (x : ℝ) : bprSig x = 1 - logistic x := (C37_bpr_sig x).2.1

/-- The parts of a lead. -/
theorem lead_after (lr reg : ℝ) (n : Nat) (t : BprTriple) (hne : t.liked ≠ t.disliked)
    (s : BprScratch ℝ) (m : BprCell → ℝ) (hone : m (.user t.user n) = 1) :
    let θ := rankFactors n m
    let xd := ∑ j ∈ Finset.range n, θ.user t.user j * (θ.item t.liked j - θ.item t.disliked j)
    let xx := ∑ j ∈ Finset.range n, θ.user t.user j * θ.user t.user j
    let dd := ∑ j ∈ Finset.range n, (θ.item t.liked j - θ.item t.disliked j) *
      (θ.item t.liked j - θ.item t.disliked j)
    let b := θ.bias t.liked - θ.bias t.disliked
    let w := lr * bprSig (θ.lead n t.user t.liked t.disliked)
    let k := 1 - lr * reg
    θ.lead n t.user t.liked t.disliked = xd + b ∧
    (rankFactors n (afterUpdate lr reg n s m t)).lead n t.user t.liked t.disliked =
      k * k * xd + k * w * (dd + 2 * xx) + 2 * (w * w) * xd + k * b + 2 * w := by
  intro θ xd xx dd b w k
  have hal' : ¬ t.disliked = t.liked := fun h => hne h.symm
  obtain ⟨h1, h2, h3, _⟩ := update_effect lr reg n t (Or.inl hne) s m hone
  have hlead : ∀ θ : RankFactors, θ.lead n t.user t.liked t.disliked =
      (∑ j ∈ Finset.range n, θ.user t.user j * (θ.item t.liked j - θ.item t.disliked j)) +
        (θ.bias t.liked - θ.bias t.disliked) := fun θ => (margin_eq_lead n θ t).symm
  refine ⟨hlead θ, ?_⟩
  rw [hlead]
  have hm : (tripleParams (rankFactors n m) t).margin n = θ.lead n t.user t.liked t.disliked :=
    margin_eq_lead n θ t
  have e1 : (∑ j ∈ Finset.range n, (rankFactors n (afterUpdate lr reg n s m t)).user t.user j *
      ((rankFactors n (afterUpdate lr reg n s m t)).item t.liked j -
        (rankFactors n (afterUpdate lr reg n s m t)).item t.disliked j)) =
      ∑ j ∈ Finset.range n, (k * k * (θ.user t.user j * (θ.item t.liked j - θ.item t.disliked j)) +
        k * w * ((θ.item t.liked j - θ.item t.disliked j) * (θ.item t.liked j - θ.item t.disliked j) +
          2 * (θ.user t.user j * θ.user t.user j)) +
        2 * (w * w) * (θ.user t.user j * (θ.item t.liked j - θ.item t.disliked j))) := by
    refine Finset.sum_congr rfl fun j hj => ?_
    have hj' := Finset.mem_range.mp hj
    show afterUpdate lr reg n s m t (.user t.user j) * (afterUpdate lr reg n s m t (.item t.liked j) -
      afterUpdate lr reg n s m t (.item t.disliked j)) = _
    rw [h1 _ j hj', h2 _ j hj', h2 _ j hj']
    simp only [spread, bprGradient, if_true, if_neg hne, if_neg hal', hm]
    show (θ.user t.user j + lr * (bprSig (θ.lead n t.user t.liked t.disliked) *
      (θ.item t.liked j - θ.item t.disliked j) - reg * θ.user t.user j)) *
      (θ.item t.liked j + lr * (bprSig (θ.lead n t.user t.liked t.disliked) * θ.user t.user j -
        reg * θ.item t.liked j + 0) - (θ.item t.disliked j + lr * (0 +
        (-bprSig (θ.lead n t.user t.liked t.disliked) * θ.user t.user j -
        reg * θ.item t.disliked j)))) = _
    simp only [k, w]
    ring
  have e2 : (rankFactors n (afterUpdate lr reg n s m t)).bias t.liked -
      (rankFactors n (afterUpdate lr reg n s m t)).bias t.disliked = k * b + 2 * w := by
    show afterUpdate lr reg n s m t (.item t.liked n) - afterUpdate lr reg n s m t (.item t.disliked n) = _
    rw [h3, h3]
    simp only [spread, bprGradient, if_true, if_neg hne, if_neg hal', hm]
    show θ.bias t.liked + lr * (bprSig (θ.lead n t.user t.liked t.disliked) - reg * θ.bias t.liked + 0) -
      (θ.bias t.disliked + lr * (0 + (-bprSig (θ.lead n t.user t.liked t.disliked) -
        reg * θ.bias t.disliked))) = _
    simp only [k, w, b]
    ring
  rw [e1, e2]
  simp only [Finset.sum_add_distrib, ← Finset.mul_sum]
  ring

/-- `|a d + c x|² ≥ 0`. -/
theorem cross_bound (n : Nat) (a c : ℝ) (x d : Nat → ℝ) :
    0 ≤ a * a * (∑ j ∈ Finset.range n, d j * d j) + 2 * (a * c) * (∑ j ∈ Finset.range n, x j * d j) +
      c * c * ∑ j ∈ Finset.range n, x j * x j := by
  have h : 0 ≤ ∑ j ∈ Finset.range n, (a * d j + c * x j) * (a * d j + c * x j) :=
    Finset.sum_nonneg fun j _ => mul_self_nonneg _
  have e : (∑ j ∈ Finset.range n, (a * d j + c * x j) * (a * d j + c * x j)) =
      a * a * (∑ j ∈ Finset.range n, d j * d j) + 2 * (a * c) * (∑ j ∈ Finset.range n, x j * d j) +
        c * c * ∑ j ∈ Finset.range n, x j * x j := by
    rw [Finset.mul_sum, Finset.mul_sum, Finset.mul_sum, ← Finset.sum_add_distrib,
      ← Finset.sum_add_distrib]
    exact Finset.sum_congr rfl fun j _ => by ring
  rwa [e] at h

theorem raise_free {w xd xx dd : ℝ} (hw0 : 0 < w) (hw1 : w * w ≤ 2) (hxx : 0 ≤ xx)
    (hc : 0 ≤ 1 * 1 * dd + 2 * (1 * w) * xd + w * w * xx) (b : ℝ) :
    xd + b < 1 * 1 * xd + 1 * w * (dd + 2 * xx) + 2 * (w * w) * xd + 1 * b + 2 * w := by
  have h2 : 0 ≤ (2 - w * w) * xx := mul_nonneg (by linarith) hxx
  have h3 : 0 ≤ dd + 2 * xx + 2 * w * xd := by linarith
  have h4 := mul_nonneg hw0.le h3
  linarith

theorem raise_regularised {lr reg w k xd xx dd b : ℝ} (hlr : 0 < lr) (hreg : 0 ≤ reg)
    (hreg2 : reg * reg ≤ 2) (hk : k = 1 - lr * reg) (hk0 : 0 ≤ k) (hlrk : lr * lr ≤ 2 * (k * k))
    (hw0 : lr / 2 ≤ w) (hw1 : w ≤ lr) (hxx : 0 ≤ xx)
    (hc1 : 0 ≤ 1 * 1 * dd + 2 * (1 * -reg) * xd + -reg * -reg * xx)
    (hc2 : 0 ≤ k * k * dd + 2 * (k * w) * xd + w * w * xx) (hb : xd + b ≤ 0) :
    xd + b < k * k * xd + k * w * (dd + 2 * xx) + 2 * (w * w) * xd + k * b + 2 * w := by
  have hw : 0 < w := by linarith
  have hkpos : 0 < k := by
    rcases hk0.lt_or_eq with h | h
    · exact h
    · rw [← h] at hlrk
      have := mul_pos hlr hlr
      linarith
  have hk1 : k ≤ 1 := by
    have := mul_nonneg hlr.le hreg
    linarith
  -- the bias contributes at least as much as if the lead were zero
  have h1 : 0 ≤ (1 - k) * (-(xd + b)) := mul_nonneg (by linarith) (by linarith)
  suffices h : 0 < (k * k - k + 2 * (w * w)) * xd + k * w * (dd + 2 * xx) + 2 * w by nlinarith
  have hww : w * w ≤ lr * lr := mul_le_mul hw1 hw1 hw.le hlr.le
  rcases le_or_gt 0 xd with hx | hx
  · have e1 : 0 ≤ (2 - reg * reg) * xx := mul_nonneg (by linarith) hxx
    have e2 : 2 * reg * xd ≤ dd + 2 * xx := by linarith
    have e3 : k * w * (2 * reg * xd) ≤ k * w * (dd + 2 * xx) :=
      mul_le_mul_of_nonneg_left e2 (mul_nonneg hk0 hw.le)
    have e4 : 0 ≤ (2 * w - lr) * (k * reg * xd) :=
      mul_nonneg (by linarith) (mul_nonneg (mul_nonneg hk0 hreg) hx)
    have e5 : (k * k - k) * xd = -(k * (lr * reg) * xd) := by rw [hk]; ring
    have e6 : 0 ≤ w * w * xd := mul_nonneg (mul_nonneg hw.le hw.le) hx
    nlinarith
  · have e1 : 0 ≤ (2 * (k * k) - w * w) * xx := mul_nonneg (by linarith) hxx
    have e2 : 0 ≤ k * (k * (dd + 2 * xx) + 2 * w * xd) := by nlinarith
    have e3 : 0 ≤ k * (dd + 2 * xx) + 2 * w * xd := nonneg_of_mul_nonneg_right e2 hkpos
    have e4 := mul_nonneg hw.le e3
    have e5 : 0 ≤ (k * (1 - k)) * -xd := mul_nonneg (mul_nonneg hk0 (by linarith)) (by linarith)
    nlinarith

/-- **C86** (unregularised).  Without regularisation and with a learning rate of at most `√2`, a sample
always raises the liked item further above the disliked one. -/
theorem C86_unregularised (lr : ℝ) (hlr : 0 < lr) (hlr2 : lr * lr ≤ 2) (n : Nat) (t : BprTriple)
    (hne : t.liked ≠ t.disliked) (s : BprScratch ℝ) (m : BprCell → ℝ) (hone : m (.user t.user n) = 1) :
    (rankFactors n m).lead n t.user t.liked t.disliked <
      (rankFactors n (afterUpdate lr 0 n s m t)).lead n t.user t.liked t.disliked := by
  obtain ⟨h1, h2⟩ := lead_after lr 0 n t hne s m hone
  obtain ⟨_, _, hz0, hz1, _⟩ := C37_bpr_sig ((rankFactors n m).lead n t.user t.liked t.disliked)
  rw [h2]
  refine lt_of_eq_of_lt h1 ?_
  rw [mul_zero, sub_zero]
  have hw : lr * bprSig ((rankFactors n m).lead n t.user t.liked t.disliked) ≤ lr := by nlinarith
  exact raise_free (mul_pos hlr hz0) (le_trans (mul_le_mul hw hw (mul_pos hlr hz0).le hlr.le) hlr2)
    (Finset.sum_nonneg fun j _ => mul_self_nonneg _) (cross_bound n _ _ _ _) _

/-- **C86** (wrong order).  A sample whose liked item is not ranked above its disliked one brings them
closer to the right order: for every learning rate and regularisation with `λ ≤ √2` and
`η ≤ √2 (1 - η λ)`, which includes the defaults 0.01. -/
theorem C86_wrong_order (lr reg : ℝ) (hlr : 0 < lr) (hreg : 0 ≤ reg) (hreg2 : reg * reg ≤ 2)
    (hk : 0 ≤ 1 - lr * reg) (hlrk : lr * lr ≤ 2 * ((1 - lr * reg) * (1 - lr * reg))) (n : Nat)
    (t : BprTriple) (hne : t.liked ≠ t.disliked) (s : BprScratch ℝ) (m : BprCell → ℝ)
    (hone : m (.user t.user n) = 1)
    (hwrong : (rankFactors n m).lead n t.user t.liked t.disliked ≤ 0) :
    (rankFactors n m).lead n t.user t.liked t.disliked <
      (rankFactors n (afterUpdate lr reg n s m t)).lead n t.user t.liked t.disliked := by
  obtain ⟨h1, h2⟩ := lead_after lr reg n t hne s m hone
  obtain ⟨_, _, hz0, hz1, hz⟩ := C37_bpr_sig ((rankFactors n m).lead n t.user t.liked t.disliked)
  have hhalf : 1 / 2 ≤ bprSig ((rankFactors n m).lead n t.user t.liked t.disliked) := by
    by_contra h
    exact absurd (hz.mp (not_le.mp h)) (not_lt.mpr hwrong)
  rw [h2]
  refine lt_of_eq_of_lt h1 ?_
  exact raise_regularised hlr hreg hreg2 rfl hk hlrk (by nlinarith) (by nlinarith)
    (Finset.sum_nonneg fun j _ => mul_self_nonneg _) (cross_bound n _ _ _ _) (cross_bound n _ _ _ _)
    (le_of_eq_of_le h1.symm hwrong)

/-- **C86** (bystanders).  What a sample of user `u` does to other scores.  Other items keep their scores
for other users; the two items move for another user `v` by the inner product of the two users plus 1 (the
bias); and other items move for `u` by their similarity to the difference of the two items.  Regularisation
shrinks the scores it touches. -/
theorem C86_bystanders (lr reg : ℝ) (n : Nat) (t : BprTriple) (hne : t.liked ≠ t.disliked)
    (s : BprScratch ℝ) (m : BprCell → ℝ) (hone : m (.user t.user n) = 1) :
    let θ := rankFactors n m
    let θ' := rankFactors n (afterUpdate lr reg n s m t)
    let z := 1 - logistic (θ.lead n t.user t.liked t.disliked)
    (∀ v i, v ≠ t.user → i ≠ t.liked → i ≠ t.disliked → θ'.score n v i = θ.score n v i) ∧
      (∀ v, v ≠ t.user → θ'.score n v t.liked = θ.score n v t.liked +
        lr * (z * ((∑ j ∈ Finset.range n, θ.user v j * θ.user t.user j) + 1) -
          reg * θ.score n v t.liked)) ∧
      (∀ v, v ≠ t.user → θ'.score n v t.disliked = θ.score n v t.disliked -
        lr * (z * ((∑ j ∈ Finset.range n, θ.user v j * θ.user t.user j) + 1) +
          reg * θ.score n v t.disliked)) ∧
      ∀ i, i ≠ t.liked → i ≠ t.disliked → θ'.score n t.user i = θ.score n t.user i +
        lr * (z * (∑ j ∈ Finset.range n, (θ.item t.liked j - θ.item t.disliked j) * θ.item i j) -
          reg * ∑ j ∈ Finset.range n, θ.user t.user j * θ.item i j) := by
  intro θ θ' z
  have hal' : ¬ t.disliked = t.liked := fun h => hne h.symm
  obtain ⟨h1, h2, h3, _⟩ := update_effect lr reg n t (Or.inl hne) s m hone
  have hz : bprSig ((tripleParams (rankFactors n m) t).margin n) = z := by
    rw [bprSig_eq, margin_eq_lead]
  have hu : ∀ v j, j < n → v ≠ t.user → θ'.user v j = θ.user v j := by
    intro v j hj hv
    refine (h1 v j hj).trans ?_
    simp only [spread, if_neg hv, mul_zero, add_zero]
    rfl
  have hi : ∀ i j, j < n → i ≠ t.liked → i ≠ t.disliked → θ'.item i j = θ.item i j := by
    intro i j hj hl hd
    refine (h2 i j hj).trans ?_
    simp only [spread, if_neg hl, if_neg hd, mul_zero, add_zero]
    rfl
  have hb : ∀ i, i ≠ t.liked → i ≠ t.disliked → θ'.bias i = θ.bias i := by
    intro i hl hd
    refine (h3 i).trans ?_
    simp only [spread, if_neg hl, if_neg hd, mul_zero, add_zero]
    rfl
  refine ⟨fun v i hv hl hd => ?_, fun v hv => ?_, fun v hv => ?_, fun i hl hd => ?_⟩
  · unfold RankFactors.score
    rw [hb i hl hd]
    congr 1
    exact Finset.sum_congr rfl fun j hj => by
      rw [hu v j (Finset.mem_range.mp hj) hv, hi i j (Finset.mem_range.mp hj) hl hd]
  · have e1 : ∀ j, j < n → θ'.item t.liked j =
        θ.item t.liked j + lr * (z * θ.user t.user j - reg * θ.item t.liked j) := by
      intro j hj
      refine (h2 _ j hj).trans ?_
      simp only [spread, bprGradient, if_true, if_neg hne, add_zero, hz]
      rfl
    have e2 : θ'.bias t.liked = θ.bias t.liked + lr * (z - reg * θ.bias t.liked) := by
      refine (h3 _).trans ?_
      simp only [spread, bprGradient, if_true, if_neg hne, add_zero, hz]
      rfl
    unfold RankFactors.score
    rw [e2, Finset.sum_congr rfl fun j hj => by
      rw [hu v j (Finset.mem_range.mp hj) hv, e1 j (Finset.mem_range.mp hj)]]
    have e3 : (∑ j ∈ Finset.range n, θ.user v j *
        (θ.item t.liked j + lr * (z * θ.user t.user j - reg * θ.item t.liked j))) =
        (∑ j ∈ Finset.range n, θ.user v j * θ.item t.liked j) +
          lr * (z * (∑ j ∈ Finset.range n, θ.user v j * θ.user t.user j) -
            reg * ∑ j ∈ Finset.range n, θ.user v j * θ.item t.liked j) := by
      simp only [Finset.mul_sum, ← Finset.sum_sub_distrib, ← Finset.sum_add_distrib]
      exact Finset.sum_congr rfl fun j _ => by ring
    rw [e3]
    ring
  · have e1 : ∀ j, j < n → θ'.item t.disliked j =
        θ.item t.disliked j + lr * (-z * θ.user t.user j - reg * θ.item t.disliked j) := by
      intro j hj
      refine (h2 _ j hj).trans ?_
      simp only [spread, bprGradient, if_true, if_neg hal', zero_add, hz]
      rfl
    have e2 : θ'.bias t.disliked = θ.bias t.disliked + lr * (-z - reg * θ.bias t.disliked) := by
      refine (h3 _).trans ?_
      simp only [spread, bprGradient, if_true, if_neg hal', zero_add, hz]
      rfl
    unfold RankFactors.score
    rw [e2, Finset.sum_congr rfl fun j hj => by
      rw [hu v j (Finset.mem_range.mp hj) hv, e1 j (Finset.mem_range.mp hj)]]
    have e3 : (∑ j ∈ Finset.range n, θ.user v j *
        (θ.item t.disliked j + lr * (-z * θ.user t.user j - reg * θ.item t.disliked j))) =
        (∑ j ∈ Finset.range n, θ.user v j * θ.item t.disliked j) +
          lr * (-z * (∑ j ∈ Finset.range n, θ.user v j * θ.user t.user j) -
            reg * ∑ j ∈ Finset.range n, θ.user v j * θ.item t.disliked j) := by
      simp only [Finset.mul_sum, ← Finset.sum_sub_distrib, ← Finset.sum_add_distrib]
      exact Finset.sum_congr rfl fun j _ => by ring
    rw [e3]
    ring
  · have e1 : ∀ j, j < n → θ'.user t.user j = θ.user t.user j +
        lr * (z * (θ.item t.liked j - θ.item t.disliked j) - reg * θ.user t.user j) := by
      intro j hj
      refine (h1 _ j hj).trans ?_
      simp only [spread, bprGradient, if_true, hz]
      rfl
    unfold RankFactors.score
    rw [hb i hl hd, Finset.sum_congr rfl fun j hj => by
      rw [e1 j (Finset.mem_range.mp hj), hi i j (Finset.mem_range.mp hj) hl hd]]
    have e3 : (∑ j ∈ Finset.range n, (θ.user t.user j +
        lr * (z * (θ.item t.liked j - θ.item t.disliked j) - reg * θ.user t.user j)) * θ.item i j) =
        (∑ j ∈ Finset.range n, θ.user t.user j * θ.item i j) +
          lr * (z * (∑ j ∈ Finset.range n, (θ.item t.liked j - θ.item t.disliked j) * θ.item i j) -
            reg * ∑ j ∈ Finset.range n, θ.user t.user j * θ.item i j) := by
      simp only [Finset.mul_sum, ← Finset.sum_sub_distrib, ← Finset.sum_add_distrib]
      exact Finset.sum_congr rfl fun j _ => by ring
    rw [e3]
    ring

/-! ## The mean over the draws -/

/-- A sum over a list, by the value of a partial function. -/
theorem sum_by_outcome {A B : Type} [DecidableEq B] (l : List A) (h : A → Option B) (T : Finset B)
    (hT : ∀ a ∈ l, ∀ b, h a = some b → b ∈ T) (F : Option B → ℝ) (hF : F none = 0) :
    (l.map fun a => F (h a)).sum =
      ∑ b ∈ T, ((l.countP fun a => h a = some b : Nat) : ℝ) * F (some b) := by
  induction l with
  | nil => simp
  | cons a l ih =>
    rw [List.map_cons, List.sum_cons, ih fun a' ha' => hT a' (by simp [ha'])]
    have hc : ∀ b, (((a :: l).countP fun a => h a = some b : Nat) : ℝ) =
        (if h a = some b then 1 else 0) + ((l.countP fun a => h a = some b : Nat) : ℝ) := by
      intro b
      rw [List.countP_cons]
      push_cast
      simp only [decide_eq_true_eq]
      split <;> ring
    have hs : (∑ b ∈ T, (((a :: l).countP fun a => h a = some b : Nat) : ℝ) * F (some b)) =
        (∑ b ∈ T, (if h a = some b then 1 else 0) * F (some b)) +
          ∑ b ∈ T, ((l.countP fun a => h a = some b : Nat) : ℝ) * F (some b) := by
      rw [← Finset.sum_add_distrib]
      exact Finset.sum_congr rfl fun b _ => by rw [hc b, add_mul]
    rw [hs]
    congr 1
    cases hab : h a with
    | none => simp [hF]
    | some b =>
      have hb := hT a (by simp) b hab
      simp only [Option.some.injEq, ite_mul, one_mul, zero_mul]
      rw [Finset.sum_ite_eq T b (fun b => F (some b)), if_pos hb]

/-- All triples of `users` users and `items` items. -/
def allTriples (users items : Nat) : Finset BprTriple :=
  (Finset.range users ×ˢ (Finset.range items ×ˢ Finset.range items)).image
    fun p => ⟨p.1, p.2.1, p.2.2⟩

theorem mem_allTriples {users items : Nat} {t : BprTriple} :
    t ∈ allTriples users items ↔ t.user < users ∧ t.liked < items ∧ t.disliked < items := by
  unfold allTriples
  simp only [Finset.mem_image, Finset.mem_product, Finset.mem_range, Prod.exists]
  constructor
  · rintro ⟨u, i, j, h, rfl⟩; exact h
  · intro h; exact ⟨t.user, t.liked, t.disliked, h, rfl⟩

theorem sum_allTriples (users items : Nat) (F : BprTriple → ℝ) :
    (∑ t ∈ allTriples users items, F t) = ∑ u ∈ Finset.range users, ∑ i ∈ Finset.range items,
      ∑ j ∈ Finset.range items, F ⟨u, i, j⟩ := by
  unfold allTriples
  rw [Finset.sum_image (by
    rintro ⟨u, i, j⟩ _ ⟨u', i', j'⟩ _ h
    simp only [BprTriple.mk.injEq] at h
    obtain ⟨rfl, rfl, rfl⟩ := h
    rfl), Finset.sum_product]
  exact Finset.sum_congr rfl fun u _ => Finset.sum_product _ _ _

theorem length_positionPairs (n : Nat) : (positionPairs n).length = n ^ 2 := by
  unfold positionPairs
  rw [List.length_flatMap]
  simp
  ring

/-- A linear combination of directions. -/
noncomputable def combine (T : Finset BprTriple) (w : BprTriple → ℝ) (g : BprTriple → RankFactors) :
    RankFactors where
  user := fun u j => ∑ t ∈ T, w t * (g t).user u j
  item := fun i j => ∑ t ∈ T, w t * (g t).item i j
  bias := fun i => ∑ t ∈ T, w t * (g t).bias i

theorem combine_inner (users items n : Nat) (T : Finset BprTriple) (w : BprTriple → ℝ)
    (g : BprTriple → RankFactors) (D : RankFactors) :
    (combine T w g).inner users items n D = ∑ t ∈ T, w t * (g t).inner users items n D := by
  have e2 : ∀ (N M : Nat) (G : BprTriple → Nat → Nat → ℝ) (E : Nat → Nat → ℝ),
      (∑ u ∈ Finset.range N, ∑ j ∈ Finset.range M, (∑ t ∈ T, w t * G t u j) * E u j) =
        ∑ t ∈ T, w t * ∑ u ∈ Finset.range N, ∑ j ∈ Finset.range M, G t u j * E u j := by
    intro N M G E
    simp only [Finset.sum_mul, Finset.mul_sum]
    rw [Finset.sum_congr rfl fun u _ => Finset.sum_comm, Finset.sum_comm]
    exact Finset.sum_congr rfl fun t _ => Finset.sum_congr rfl fun u _ =>
      Finset.sum_congr rfl fun j _ => by ring
  have e1 : ∀ (N : Nat) (G : BprTriple → Nat → ℝ) (E : Nat → ℝ),
      (∑ u ∈ Finset.range N, (∑ t ∈ T, w t * G t u) * E u) =
        ∑ t ∈ T, w t * ∑ u ∈ Finset.range N, G t u * E u := by
    intro N G E
    simp only [Finset.sum_mul, Finset.mul_sum]
    rw [Finset.sum_comm]
    exact Finset.sum_congr rfl fun t _ => Finset.sum_congr rfl fun u _ => by ring
  unfold RankFactors.inner combine
  dsimp only
  rw [e2 users n (fun t => (g t).user), e2 items n (fun t => (g t).item), e1 items (fun t => (g t).bias),
    ← Finset.sum_add_distrib, ← Finset.sum_add_distrib]
  exact Finset.sum_congr rfl fun t _ => by ring

/-- **C86** (mean).  All pairs of drawn positions are equally likely (C65).  The mean change of a sample
over them is the learning rate times the gradient of the pairwise ranking objective, over all users and
items: negatives count with their popularity, and triples whose negative the user likes count only without
`verify_negative_samples`.  With that option off, this holds without regularisation only (see
`C37_alias_violated`). -/
theorem C86_mean (lr reg : ℝ) (verify : Bool) (hv : verify = true ∨ reg = 0) (matrix : List (List Nat))
    (items : Nat) (hitems : ∀ r ∈ matrix, ∀ i ∈ r, i < items) (n : Nat) (s : BprScratch ℝ)
    (m : BprCell → ℝ) (hone : ∀ u, m (.user u n) = 1) :
    let change := fun c => mean (positionPairs (nnz matrix)) fun d =>
      afterSample lr reg verify matrix n s m d c - m c
    ∃ g, IsRankGradient matrix.length items n (rankingObjective verify matrix items n reg)
        (rankFactors n m) g ∧
      (∀ u j, j < n → change (.user u j) = lr * g.user u j) ∧
      (∀ i j, j < n → change (.item i j) = lr * g.item i j) ∧
      (∀ i, change (.item i n) = lr * g.bias i) ∧
      ∀ u, change (.user u n) = 0 := by
  intro change
  set T := allTriples matrix.length items with hT
  set W : BprTriple → ℝ := fun t =>
    (pairsOf verify matrix t.user t.liked t.disliked : ℝ) / (nnz matrix : ℝ) ^ 2 with hW
  set G : BprTriple → RankFactors := fun t =>
    spread t (bprGradient n reg (tripleParams (rankFactors n m) t)) with hG
  -- the change is the combination of the changes of the triples
  have hchosen : ∀ d ∈ positionPairs (nnz matrix), ∀ t,
      bprChosen verify (bprRows verify matrix) d = some t →
        t ∈ T ∧ (t.liked ≠ t.disliked ∨ reg = 0) := by
    rintro ⟨l, d⟩ hp t ht
    rw [mem_positionPairs] at hp
    obtain ⟨u, i, j, ⟨r, hr, hir⟩, ⟨u', r', hr', hj'⟩, hc⟩ := C35_choice verify matrix l d hp.1 hp.2
    unfold bprChosen at ht
    rcases hc with ⟨hc, _⟩ | ⟨hc, hnot⟩
    · simp only [hc] at ht; cases ht
    · simp only [hc, Option.some.injEq] at ht
      subst ht
      refine ⟨mem_allTriples.mpr ⟨?_, hitems r (List.mem_of_getElem? hr) i hir,
        hitems r' (List.mem_of_getElem? hr') j hj'⟩, ?_⟩
      · exact (List.getElem?_eq_some_iff.mp hr).1
      · rcases hv with hv | hv
        · refine Or.inl ?_
          rintro (rfl : i = j)
          exact hnot hv ⟨r, hr, hir⟩
        · exact Or.inr hv
  let E : BprCell → Option BprTriple → ℝ := fun c o => match o with
    | none => 0
    | some t => if t.liked ≠ t.disliked ∨ reg = 0 then afterUpdate lr reg n s m t c - m c else 0
  have hafter : ∀ d ∈ positionPairs (nnz matrix), ∀ c, afterSample lr reg verify matrix n s m d c - m c =
      E c (bprChosen verify (bprRows verify matrix) d) := by
    rintro d hd c
    simp only [E]
    have h := hchosen d hd
    unfold bprChosen at h ⊢
    unfold afterSample bprProg
    split at h
    · rename_i t ht
      rw [ht]
      dsimp only
      rw [if_pos (h t rfl).2]
      rfl
    · rename_i hno
      cases hcase : bprChoose verify (bprRows verify matrix) d.1 d.2 with
      | error e => simp [runInstrs]
      | ok o =>
        cases o with
        | none => simp [runInstrs, bprAct]
        | some t => exact absurd hcase (hno t)
  have hchange : ∀ c, change c = ∑ t ∈ T, W t *
      (if t.liked ≠ t.disliked ∨ reg = 0 then afterUpdate lr reg n s m t c - m c else 0) := by
    intro c
    show (List.map _ _).sum / _ = _
    rw [List.map_congr_left fun d hd => hafter d hd c, sum_by_outcome _ _ T
      (fun d hd t ht => (hchosen d hd t ht).1) (E c) rfl, length_positionPairs, Finset.sum_div]
    refine Finset.sum_congr rfl fun t _ => ?_
    rw [count_chosen]
    simp only [hW, pairsOf]
    push_cast
    ring
  -- triples of equal items do not count with `verify`
  have hskip : ∀ t ∈ T, ¬ (t.liked ≠ t.disliked ∨ reg = 0) → W t = 0 := by
    intro t _ hno
    push Not at hno
    obtain ⟨h1, h2⟩ := hno
    have hver : verify = true := hv.resolve_right h2
    simp only [hW, pairsOf]
    by_cases h0 : 0 < storedIn matrix t.user t.disliked
    · rw [if_pos ⟨hver, h0⟩]; simp
    · rw [if_neg (fun h => h0 h.2), h1]
      have : storedIn matrix t.user t.disliked = 0 := by omega
      rw [this]; simp
  have hW' : ∀ t ∈ T, ∀ F E : ℝ, (t.liked ≠ t.disliked ∨ reg = 0 → F = lr * E) →
      W t * (if t.liked ≠ t.disliked ∨ reg = 0 then F else 0) = lr * (W t * E) := by
    intro t ht F E h
    by_cases hc : t.liked ≠ t.disliked ∨ reg = 0
    · rw [if_pos hc, h hc]; ring
    · rw [hskip t ht hc]; ring
  refine ⟨combine T W G, ?_, ?_, ?_, ?_, ?_⟩
  · intro D
    have hterm : ∀ t ∈ T, HasDerivAt (fun τ => W t *
        bprObjective n reg (tripleParams ((rankFactors n m).move D τ) t))
        (W t * (G t).inner matrix.length items n D) 0 := by
      intro t ht
      obtain ⟨h1, h2, h3⟩ := mem_allTriples.mp ht
      rw [hG]
      dsimp only
      rw [spread_inner _ _ _ _ h1 h2 h3]
      exact (bprGradient_spec n reg (tripleParams (rankFactors n m) t) (tripleParams D t)).const_mul (W t)
    rw [combine_inner]
    have := HasDerivAt.fun_sum hterm
    refine this.congr_of_eventuallyEq (Filter.Eventually.of_forall fun τ => ?_)
    unfold rankingObjective
    dsimp only
    rw [hT, sum_allTriples, Finset.sum_div]
    refine Finset.sum_congr rfl fun u _ => ?_
    rw [Finset.sum_div]
    refine Finset.sum_congr rfl fun i _ => ?_
    rw [Finset.sum_div]
    refine Finset.sum_congr rfl fun j _ => ?_
    rw [tripleObjective_eq]
    simp only [hW]
    ring
  · intro u j hj
    rw [hchange]
    show _ = lr * ∑ t ∈ T, W t * (G t).user u j
    rw [Finset.mul_sum]
    refine Finset.sum_congr rfl fun t ht => hW' t ht _ _ fun hc => ?_
    rw [(update_effect lr reg n t hc s m (hone _)).1 u j hj]
    ring
  · intro i j hj
    rw [hchange]
    show _ = lr * ∑ t ∈ T, W t * (G t).item i j
    rw [Finset.mul_sum]
    refine Finset.sum_congr rfl fun t ht => hW' t ht _ _ fun hc => ?_
    rw [(update_effect lr reg n t hc s m (hone _)).2.1 i j hj]
    ring
  · intro i
    rw [hchange]
    show _ = lr * ∑ t ∈ T, W t * (G t).bias i
    rw [Finset.mul_sum]
    refine Finset.sum_congr rfl fun t ht => hW' t ht _ _ fun hc => ?_
    rw [(update_effect lr reg n t hc s m (hone _)).2.2.1 i]
    ring
  · intro u
    rw [hchange]
    refine Finset.sum_eq_zero fun t ht => ?_
    rw [hW' t ht _ 0 fun hc => ?_]
    · ring
    · rw [(update_effect lr reg n t hc s m (hone _)).2.2.2 u]
      ring

/-- **C86** (on average a sample climbs).  The slope of the ranking objective along the mean change of a
sample is the sum of the squared mean changes divided by the learning rate: never negative, and zero only if
the mean change is. -/
theorem C86_climbs (lr reg : ℝ) (hlr : 0 < lr) (verify : Bool) (hv : verify = true ∨ reg = 0)
    (matrix : List (List Nat)) (items : Nat) (hitems : ∀ r ∈ matrix, ∀ i ∈ r, i < items) (n : Nat)
    (s : BprScratch ℝ) (m : BprCell → ℝ) (hone : ∀ u, m (.user u n) = 1) :
    let change := rankFactors n fun c => mean (positionPairs (nnz matrix)) fun d =>
      afterSample lr reg verify matrix n s m d c - m c
    HasDerivAt (fun τ => rankingObjective verify matrix items n reg ((rankFactors n m).move change τ))
        (change.inner matrix.length items n change / lr) 0 ∧
      0 ≤ change.inner matrix.length items n change / lr := by
  intro change
  obtain ⟨g, hg, h1, h2, h3, _⟩ := C86_mean lr reg verify hv matrix items hitems n s m hone
  have e : g.inner matrix.length items n change = change.inner matrix.length items n change / lr := by
    rw [eq_div_iff hlr.ne', mul_comm]
    unfold RankFactors.inner
    rw [mul_add, mul_add, Finset.mul_sum, Finset.mul_sum, Finset.mul_sum]
    congr 1
    · congr 1
      · refine Finset.sum_congr rfl fun u _ => ?_
        rw [Finset.mul_sum]
        refine Finset.sum_congr rfl fun j hj => ?_
        have := h1 u j (Finset.mem_range.mp hj)
        show lr * (g.user u j * change.user u j) = change.user u j * change.user u j
        rw [← mul_assoc, ← this]
        rfl
      · refine Finset.sum_congr rfl fun i _ => ?_
        rw [Finset.mul_sum]
        refine Finset.sum_congr rfl fun j hj => ?_
        have := h2 i j (Finset.mem_range.mp hj)
        show lr * (g.item i j * change.item i j) = change.item i j * change.item i j
        rw [← mul_assoc, ← this]
        rfl
    · refine Finset.sum_congr rfl fun i _ => ?_
      have := h3 i
      show lr * (g.bias i * change.bias i) = change.bias i * change.bias i
      rw [← mul_assoc, ← this]
      rfl
  constructor
  · rw [← e]
    exact hg change
  · refine div_nonneg ?_ hlr.le
    unfold RankFactors.inner
    exact add_nonneg (add_nonneg (Finset.sum_nonneg fun u _ => Finset.sum_nonneg fun j _ => mul_self_nonneg _)
      (Finset.sum_nonneg fun u _ => Finset.sum_nonneg fun j _ => mul_self_nonneg _))
      (Finset.sum_nonneg fun u _ => mul_self_nonneg _)

/-! ## Where it fails -/

/-- A model with one factor: user factor `x`, item 0 with factor `y` and bias `b`, all other items zero. -/
def oneFactor (x y b : ℝ) : BprCell → ℝ
  | .user _ 0 => x
  | .user _ _ => 1
  | .item 0 0 => y
  | .item 0 _ => b
  | .item _ _ => 0

theorem oneFactor_lead (lr reg x y b : ℝ) (s : BprScratch ℝ) :
    (rankFactors 1 (oneFactor x y b)).lead 1 0 0 1 = x * y + b ∧
    (rankFactors 1 (afterUpdate lr reg 1 s (oneFactor x y b) ⟨0, 0, 1⟩)).lead 1 0 0 1 =
      (1 - lr * reg) * (1 - lr * reg) * (x * y) +
        (1 - lr * reg) * (lr * bprSig (x * y + b)) * (y * y + 2 * (x * x)) +
        2 * (lr * bprSig (x * y + b) * (lr * bprSig (x * y + b))) * (x * y) + (1 - lr * reg) * b +
        2 * (lr * bprSig (x * y + b)) := by
  obtain ⟨h1, h2⟩ := lead_after lr reg 1 ⟨0, 0, 1⟩ (by decide) s (oneFactor x y b) rfl
  have e1 : (rankFactors 1 (oneFactor x y b)).lead 1 0 0 1 = x * y + b := by
    refine h1.trans ?_
    simp [rankFactors, oneFactor]
  refine ⟨e1, ?_⟩
  have e2 : (rankFactors 1 (oneFactor x y b)).lead 1 (BprTriple.user ⟨0, 0, 1⟩) (BprTriple.liked ⟨0, 0, 1⟩)
      (BprTriple.disliked ⟨0, 0, 1⟩) = x * y + b := e1
  rw [e2] at h2
  refine h2.trans ?_
  simp [rankFactors, oneFactor]

/-- **C86** fails for a pair already in the right order: the regularisation step can reverse it.  User factor
6, liked item with factor 6 and bias -32, learning rate and regularisation 1/2: the liked item leads by 4
before the sample and is behind after it. -/
theorem C86_right_order_violated (s : BprScratch ℝ) :
    (rankFactors 1 (oneFactor 6 6 (-32))).lead 1 0 0 1 = 4 ∧
      (rankFactors 1 (afterUpdate (1 / 2) (1 / 2) 1 s (oneFactor 6 6 (-32)) ⟨0, 0, 1⟩)).lead 1 0 0 1 < 0 := by
  obtain ⟨h1, h2⟩ := oneFactor_lead (1 / 2) (1 / 2) 6 6 (-32) s
  refine ⟨h1.trans (by norm_num), ?_⟩
  rw [h2, show (6 : ℝ) * 6 + -32 = 4 by norm_num]
  obtain ⟨_, _, hz0, _, _⟩ := C37_bpr_sig 4
  have hz : bprSig 4 ≤ 1 / 17 := by
    unfold bprSig
    have h1 : (2 : ℝ) ≤ Real.exp 1 := by
      have := Real.add_one_le_exp (1 : ℝ)
      linarith
    have h4 : Real.exp 4 = Real.exp 1 ^ 4 := by rw [← Real.exp_nat_mul]; norm_num
    have h5 : (2 : ℝ) ^ 4 ≤ Real.exp 1 ^ 4 := pow_le_pow_left₀ (by norm_num) h1 4
    rw [← h4] at h5
    exact one_div_le_one_div_of_le (by norm_num) (by linarith)
  set z := bprSig 4
  have hzz : z * z ≤ 1 / 17 * (1 / 17) := mul_le_mul hz hz hz0.le (by norm_num)
  norm_num
  nlinarith

/-- **C86** fails for large learning rates: at rate 4 a pair in the wrong order is driven further apart. -/
theorem C86_large_rate_violated (s : BprScratch ℝ) :
    (rankFactors 1 (oneFactor 10 (-14) 0)).lead 1 0 0 1 < 0 ∧
    (rankFactors 1 (afterUpdate 4 0 1 s (oneFactor 10 (-14) 0) ⟨0, 0, 1⟩)).lead 1 0 0 1 <
      (rankFactors 1 (oneFactor 10 (-14) 0)).lead 1 0 0 1 := by
  obtain ⟨h1, h2⟩ := oneFactor_lead 4 0 10 (-14) 0 s
  rw [h2, h1]
  refine ⟨by norm_num, ?_⟩
  obtain ⟨_, _, hz0, _, hz⟩ := C37_bpr_sig (10 * -14 + 0)
  have hhalf : 1 / 2 ≤ bprSig (10 * -14 + 0) := by
    by_contra h
    have := hz.mp (not_le.mp h)
    norm_num at this
  set z := bprSig (10 * -14 + 0)
  nlinarith

/-! ## Examples -/

/-- The default learning rate and regularisation: a liked item a whole point behind catches up. -/
example (s : BprScratch ℝ) : (rankFactors 1 (oneFactor 1 (-2) 1)).lead 1 0 0 1 <
    (rankFactors 1 (afterUpdate (1 / 100) (1 / 100) 1 s (oneFactor 1 (-2) 1) ⟨0, 0, 1⟩)).lead 1 0 0 1 :=
  C86_wrong_order (1 / 100) (1 / 100) (by norm_num) (by norm_num) (by norm_num) (by norm_num) (by norm_num)
    1 ⟨0, 0, 1⟩ (by decide) s _ rfl (by
      rw [(oneFactor_lead 0 0 1 (-2) 1 s).1]
      norm_num)

/-- Two users with one item each: of the four pairs of draws two are skipped, the others make the triples
`(0, 0, 1)` and `(1, 1, 0)`. -/
example : pairsOf true [[0], [1]] 0 0 1 = 1 ∧ pairsOf true [[0], [1]] 1 1 0 = 1 ∧
    pairsOf true [[0], [1]] 0 0 0 = 0 ∧ pairsOf false [[0], [1]] 0 0 0 = 1 ∧
    nnz [[0], [1]] ^ 2 = 4 := by decide

end Implicit
