import Verif.Lemmas.Gradient
import Verif.Props.C36
import Mathlib.Data.Real.Sqrt
import Mathlib.Tactic.Linarith

/-!
# C37 — BPR and LMF updates are gradient ascent steps

In exact real arithmetic, one sample (BPR) or one row (LMF) executed without interference.
-/

set_option linter.unusedSectionVars false

namespace Implicit

open Spec

/-! ## The logistic expressions -/

/-- The two branches of LMF's `sigmoid` are the same function. -/
theorem C37_sigmoid (x : ℝ) : lmfSigmoid x = logistic x ∧ 0 < logistic x ∧ logistic x < 1 := by
  have hexp : Real.exp x * Real.exp (-x) = 1 := by rw [← Real.exp_add]; simp
  have hp := Real.exp_pos x
  have hn := Real.exp_pos (-x)
  refine ⟨?_, logistic_pos x, ?_⟩
  · unfold lmfSigmoid
    split
    · rfl
    · unfold logistic
      dsimp only
      rw [div_eq_div_iff (by positivity) (by positivity)]
      linear_combination hexp
  · unfold logistic
    rw [div_lt_one (by positivity)]
    linarith

/-- BPR's `1.0 / (1.0 + exp(score))`. -/
noncomputable def bprSig (score : ℝ) : ℝ := 1 / (1 + Real.exp score)

/-- BPR's expression is the logistic function of the negated score, in `(0, 1)`, and is below one half
exactly for positive scores, i.e. correctly ranked samples. -/
theorem C37_bpr_sig (score : ℝ) :
    bprSig score = logistic (-score) ∧ bprSig score = 1 - logistic score ∧
      0 < bprSig score ∧ bprSig score < 1 ∧ (bprSig score < 1 / 2 ↔ 0 < score) := by
  have h1 : bprSig score = logistic (-score) := by unfold bprSig logistic; simp
  have hexp : Real.exp score * Real.exp (-score) = 1 := by rw [← Real.exp_add]; simp
  have hp := Real.exp_pos score
  have hn := Real.exp_pos (-score)
  refine ⟨h1, ?_, by rw [h1]; exact logistic_pos _, by rw [h1]; exact (C37_sigmoid _).2.2, ?_⟩
  · unfold bprSig logistic
    rw [eq_sub_iff_add_eq, div_add_div _ _ (by positivity) (by positivity),
      div_eq_one_iff_eq (by positivity)]
    linear_combination -hexp
  · unfold bprSig
    rw [div_lt_div_iff_of_pos_left one_pos (by positivity) (by norm_num)]
    constructor
    · intro h
      have : 1 < Real.exp score := by linarith
      exact Real.one_lt_exp_iff.mp this
    · intro h
      have := Real.one_lt_exp_iff.mpr h
      linarith

/-! ## BPR -/

/-- The parameters of a sample in memory. -/
def bprParams (t : BprTriple) (factors : Nat) (m : BprCell → ℝ) : BprParams where
  user := fun j => m (.user t.user j)
  liked := fun j => m (.item t.liked j)
  disliked := fun j => m (.item t.disliked j)
  likedBias := m (.item t.liked factors)
  dislikedBias := m (.item t.disliked factors)

theorem hasDerivAt_margin (n : ℕ) (p d : BprParams) :
    HasDerivAt (fun τ => (p.move d τ).margin n)
      ((∑ j ∈ Finset.range n, (d.user j * (p.liked j - p.disliked j) +
        p.user j * (d.liked j - d.disliked j))) + (d.likedBias - d.dislikedBias)) 0 := by
  have hlin : ∀ a b : ℝ, HasDerivAt (fun τ : ℝ => a + τ * b) b 0 := by
    intro a b
    simpa using ((hasDerivAt_id (0 : ℝ)).mul_const b).const_add a
  unfold BprParams.margin BprParams.move
  dsimp only
  refine HasDerivAt.add (HasDerivAt.fun_sum fun j _ => ?_)
    ((hlin _ _).sub (hlin _ _))
  have h := (hlin (p.user j) (d.user j)).mul ((hlin (p.liked j) (d.liked j)).sub
    (hlin (p.disliked j) (d.disliked j)))
  have e : d.user j * (p.liked j - p.disliked j) + p.user j * (d.liked j - d.disliked j) =
      d.user j * (p.liked j + 0 * d.liked j - (p.disliked j + 0 * d.disliked j)) +
        (p.user j + 0 * d.user j) * (d.liked j - d.disliked j) := by ring
  rw [e]
  exact h

theorem hasDerivAt_inner (n : ℕ) (p d : BprParams) :
    HasDerivAt (fun τ => (p.move d τ).inner n (p.move d τ)) (2 * p.inner n d) 0 := by
  have hlin : ∀ a b : ℝ, HasDerivAt (fun τ : ℝ => a + τ * b) b 0 := by
    intro a b
    simpa using ((hasDerivAt_id (0 : ℝ)).mul_const b).const_add a
  have hsq : ∀ a b : ℝ, HasDerivAt (fun τ : ℝ => (a + τ * b) * (a + τ * b)) (2 * (a * b)) 0 := by
    intro a b
    have h := (hlin a b).mul (hlin a b)
    have e : 2 * (a * b) = b * (a + 0 * b) + (a + 0 * b) * b := by ring
    rw [e]
    exact h
  unfold BprParams.inner BprParams.move
  dsimp only
  have e : 2 * ((∑ j ∈ Finset.range n,
      (p.user j * d.user j + p.liked j * d.liked j + p.disliked j * d.disliked j)) +
        p.likedBias * d.likedBias + p.dislikedBias * d.dislikedBias) =
      (∑ j ∈ Finset.range n, (2 * (p.user j * d.user j) + 2 * (p.liked j * d.liked j) +
        2 * (p.disliked j * d.disliked j))) +
        2 * (p.likedBias * d.likedBias) + 2 * (p.dislikedBias * d.dislikedBias) := by
    rw [mul_add, mul_add, Finset.mul_sum]
    congr 2
    exact Finset.sum_congr rfl fun j _ => by ring
  rw [e]
  exact ((HasDerivAt.fun_sum fun j _ => ((hsq _ _).add (hsq _ _)).add (hsq _ _)).add (hsq _ _)).add
    (hsq _ _)

/-- The gradient of the objective. -/
noncomputable def bprGradient (n : ℕ) (reg : ℝ) (p : BprParams) : BprParams where
  user := fun j => bprSig (p.margin n) * (p.liked j - p.disliked j) - reg * p.user j
  liked := fun j => bprSig (p.margin n) * p.user j - reg * p.liked j
  disliked := fun j => -bprSig (p.margin n) * p.user j - reg * p.disliked j
  likedBias := bprSig (p.margin n) - reg * p.likedBias
  dislikedBias := -bprSig (p.margin n) - reg * p.dislikedBias

theorem bprGradient_spec (n : ℕ) (reg : ℝ) (p : BprParams) :
    IsBprGradient n (bprObjective n reg) p (bprGradient n reg p) := by
  intro d
  have hm := hasDerivAt_margin n p d
  have h0 : (p.move d 0).margin n = p.margin n := by simp [BprParams.margin, BprParams.move]
  have h1 : HasDerivAt (fun y => Real.log (logistic y)) (bprSig (p.margin n))
      ((p.move d 0).margin n) := by
    rw [h0]; exact hasDerivAt_log_logistic _
  have h2 := (h1.comp 0 hm).sub ((hasDerivAt_inner n p d).const_mul (reg / 2))
  have e : (bprGradient n reg p).inner n d =
      bprSig (p.margin n) * ((∑ j ∈ Finset.range n, (d.user j * (p.liked j - p.disliked j) +
        p.user j * (d.liked j - d.disliked j))) + (d.likedBias - d.dislikedBias)) -
        reg / 2 * (2 * p.inner n d) := by
    unfold BprParams.inner bprGradient
    dsimp only
    have e1 : reg / 2 * (2 * ((∑ j ∈ Finset.range n,
        (p.user j * d.user j + p.liked j * d.liked j + p.disliked j * d.disliked j)) +
          p.likedBias * d.likedBias + p.dislikedBias * d.dislikedBias)) =
        (∑ j ∈ Finset.range n, reg *
        (p.user j * d.user j + p.liked j * d.liked j + p.disliked j * d.disliked j)) +
          reg * (p.likedBias * d.likedBias + p.dislikedBias * d.dislikedBias) := by
      rw [← Finset.mul_sum]; ring
    rw [e1, mul_add, Finset.mul_sum]
    have e2 : (∑ j ∈ Finset.range n,
        ((bprSig (p.margin n) * (p.liked j - p.disliked j) - reg * p.user j) * d.user j +
          (bprSig (p.margin n) * p.user j - reg * p.liked j) * d.liked j +
          (-bprSig (p.margin n) * p.user j - reg * p.disliked j) * d.disliked j)) =
        (∑ j ∈ Finset.range n, bprSig (p.margin n) * (d.user j * (p.liked j - p.disliked j) +
          p.user j * (d.liked j - d.disliked j))) -
        ∑ j ∈ Finset.range n, reg *
          (p.user j * d.user j + p.liked j * d.liked j + p.disliked j * d.disliked j) := by
      rw [← Finset.sum_sub_distrib]
      exact Finset.sum_congr rfl fun j _ => by ring
    rw [e2]
    ring
  rw [e]
  exact h2

/-- **One BPR update** on distinct items, with the user's bias column equal to 1 (C36), moves the
parameters of the sample by `learning_rate` times the gradient at the old values — all coordinates
simultaneously — and touches nothing else. -/
theorem C37_bpr (lr reg : ℝ) (factors : Nat) (t : BprTriple) (hne : t.liked ≠ t.disliked)
    (s : BprScratch ℝ) (m : BprCell → ℝ) (hone : m (.user t.user factors) = 1) :
    let m' := (runInstrs (bprAct bprSig lr reg) (bprUpdateProg factors t) s m).2
    ∃ g, IsBprGradient factors (bprObjective factors reg) (bprParams t factors m) g ∧
      (∀ j, j < factors → m' (.user t.user j) = m (.user t.user j) + lr * g.user j) ∧
      (∀ j, j < factors → m' (.item t.liked j) = m (.item t.liked j) + lr * g.liked j) ∧
      (∀ j, j < factors → m' (.item t.disliked j) = m (.item t.disliked j) + lr * g.disliked j) ∧
      m' (.item t.liked factors) = m (.item t.liked factors) + lr * g.likedBias ∧
      m' (.item t.disliked factors) = m (.item t.disliked factors) + lr * g.dislikedBias ∧
      ∀ c, (∀ j, j < factors → c ≠ .user t.user j) → (∀ j, j ≤ factors → c ≠ .item t.liked j) →
        (∀ j, j ≤ factors → c ≠ .item t.disliked j) → m' c = m c := by
  intro m'
  obtain ⟨h1, h2, h3, h4, h5, _⟩ := bpr_update_effect bprSig lr reg factors t hne s m
  have hmargin : (bprParams t factors m).margin factors = ∑ j ∈ Finset.range (factors + 1),
      m (.user t.user j) * (m (.item t.liked j) - m (.item t.disliked j)) := by
    rw [Finset.sum_range_succ, hone, one_mul]
    rfl
  refine ⟨bprGradient factors reg (bprParams t factors m), bprGradient_spec _ _ _, ?_, ?_, ?_, ?_, ?_,
    ?_⟩
  · intro j hj
    refine (h1 j hj).trans ?_
    simp only [bprGradient, hmargin]
    rfl
  · intro j hj
    refine (h2 j hj).trans ?_
    simp only [bprGradient, hmargin]
    rfl
  · intro j hj
    refine (h3 j hj).trans ?_
    simp only [bprGradient, hmargin]
    rfl
  · refine h4.trans ?_
    simp only [bprGradient, hmargin]
    rfl
  · refine h5.trans ?_
    simp only [bprGradient, hmargin]
    rfl
  · intro c hu hl hd
    have key : ∀ (is : List BprInstr) (s : BprScratch ℝ) (m : BprCell → ℝ),
        (∀ i ∈ is, i ∈ bprUpdateProg factors t) → (runInstrs (bprAct bprSig lr reg) is s m).2 c = m c := by
      intro is
      induction is with
      | nil => exact fun s m _ => rfl
      | cons i is ih =>
        intro s m hi
        unfold runInstrs
        rw [ih _ _ (fun j hj => hi j (by simp [hj])),
          bprUpdateProg_frame bprSig lr reg factors t i (hi i (by simp)) c hu hl hd]
    exact key _ s m (fun i hi => hi)

/-- With `verify_negative_samples` the two items of an update are always distinct, so every update of
such a fit is a gradient step. -/
theorem C37_distinct (matrix : List (List Nat)) (l d : Nat) (hl : l < nnz matrix)
    (hd : d < nnz matrix) (t : BprTriple)
    (h : bprChoose true (bprRows true matrix) l d = .ok (some t)) : t.liked ≠ t.disliked := by
  obtain ⟨u, i, j, hs, _, h' | h'⟩ := C35_choice true matrix l d hl hd
  · rw [h'.1] at h; cases h
  · rw [h'.1] at h
    cases h
    rintro (rfl : i = j)
    exact h'.2 rfl hs

/-- **Without `verify_negative_samples` the same item can be both liked and disliked**; the two stores
then build on each other: with zero item factors the gradient is zero (the margin is constantly zero)
but the item's factor moves. -/
theorem C37_alias_violated :
    let t : BprTriple := ⟨0, 0, 0⟩
    let m : BprCell → ℝ := fun c => match c with | .user _ _ => 1 | .item _ _ => 0
    let m' := (runInstrs (bprAct bprSig 1 1) (bprUpdateProg 1 t) ⟨0, 0, 0, 0, 0, 0, 0, 0⟩ m).2
    bprChoose false (bprRows false [[0]]) 0 0 = .ok (some t) ∧
      (∀ x : ℝ, (⟨fun _ => 1, fun _ => x, fun _ => x, 0, 0⟩ : BprParams).margin 1 = 0) ∧
      m (.item 0 0) = 0 ∧ m' (.item 0 0) = -1 / 2 := by
  intro t m m'
  refine ⟨by decide +kernel, fun x => by simp [BprParams.margin], rfl, ?_⟩
  have hs : bprSig 0 = 1 / 2 := by unfold bprSig; rw [Real.exp_zero]; norm_num
  simp only [m', bprUpdateProg, bprScoreRound, bprUpdateRound, List.range_succ, List.range_zero,
    List.nil_append, List.flatMap_append, List.flatMap_cons, List.flatMap_nil, List.append_nil,
    List.cons_append, runInstrs, bprAct, t, m]
  simp [Function.update, hs]
  norm_num

/-! ## BPR on the GPU -/

/-- The coordinate of a cell. -/
def BprCell.coord : BprCell → Nat
  | .user _ j => j
  | .item _ j => j

/-- What thread `l` of a block does for a sample that is not skipped. -/
def gpuSample (t : BprTriple) (l : Nat) (score : ℝ) : List (GpuBprInstr ℝ) :=
  [.loadUser t l, .loadLiked t l, .loadDisliked t l, .logistic score, .storeLiked t l, .storeDisliked t l,
    .storeUser t l]

theorem gpuBprProg_eq (verify : Bool) (rows : List (List Nat)) (l a b : Nat) (score : ℝ) (t : BprTriple)
    (h : gpuChoose verify rows a b = .ok (some t)) :
    gpuBprProg verify rows (l, (a, b), score) = gpuSample t l score := by
  unfold gpuBprProg
  rw [h]
  rfl

theorem gpuSample_local (sig : ℝ → ℝ) (lr reg : ℝ) (cols : Nat) (t : BprTriple) (l : Nat) (score : ℝ) :
    ∀ i ∈ gpuSample t l score, LocalTo (gpuBprAct sig lr reg cols) {c | c.coord = l} i := by
  intro i hi
  have hu : ∀ x, (BprCell.user x l) ∈ {c : BprCell | c.coord = l} := fun _ => rfl
  have hit : ∀ x, (BprCell.item x l) ∈ {c : BprCell | c.coord = l} := fun _ => rfl
  have hupd : ∀ (m m' : BprCell → ℝ) (c : BprCell) (v v' : ℝ), v = v' →
      (∀ a ∈ {c : BprCell | c.coord = l}, m a = m' a) →
      ∀ a ∈ {c : BprCell | c.coord = l}, Function.update m c v a = Function.update m' c v' a := by
    intro m m' c v v' hv hm a ha
    subst hv
    by_cases hac : a = c
    · subst hac; simp
    · rw [Function.update_of_ne hac, Function.update_of_ne hac, hm a ha]
  have hfr : ∀ (m : BprCell → ℝ) (c : BprCell) (v : ℝ), c.coord = l → ∀ a, a ∉ {c : BprCell | c.coord = l} →
      Function.update m c v a = m a := by
    intro m c v hc a ha
    exact Function.update_of_ne (fun h => ha (by rw [h]; exact hc)) _ _
  simp only [gpuSample, List.mem_cons, List.not_mem_nil, or_false] at hi
  rcases hi with rfl | rfl | rfl | rfl | rfl | rfl | rfl
  · exact ⟨fun s m a _ => rfl, fun s m m' hm => ⟨by simp only [gpuBprAct, hm _ (hu _)], hm⟩⟩
  · exact ⟨fun s m a _ => rfl, fun s m m' hm => ⟨by simp only [gpuBprAct, hm _ (hit _)], hm⟩⟩
  · exact ⟨fun s m a _ => rfl, fun s m m' hm => ⟨by simp only [gpuBprAct, hm _ (hit _)], hm⟩⟩
  · exact ⟨fun s m a _ => rfl, fun s m m' hm => ⟨rfl, hm⟩⟩
  · exact ⟨fun s m a ha => hfr m _ _ rfl a ha,
      fun s m m' hm => ⟨rfl, hupd m m' _ _ _ (by rw [hm _ (hit _)]) hm⟩⟩
  · exact ⟨fun s m a ha => hfr m _ _ rfl a ha,
      fun s m m' hm => ⟨rfl, hupd m m' _ _ _ (by rw [hm _ (hit _)]) hm⟩⟩
  · by_cases hl : l < cols
    · refine ⟨fun s m a ha => ?_, fun s m m' hm => ⟨rfl, ?_⟩⟩
      · simp only [gpuBprAct, if_pos hl]
        exact hfr m _ _ rfl a ha
      · simp only [gpuBprAct, if_pos hl]
        exact hupd m m' _ _ _ (by rw [hm _ (hu _)]) hm
    · exact ⟨fun s m a _ => by simp only [gpuBprAct, if_neg hl],
        fun s m m' hm => ⟨rfl, by simpa only [gpuBprAct, if_neg hl] using hm⟩⟩

/-- What one thread leaves behind. -/
theorem gpuSample_effect (sig : ℝ → ℝ) (lr reg : ℝ) (cols : Nat) (t : BprTriple) (hne : t.liked ≠ t.disliked)
    (l : Nat) (hl : l < cols) (score : ℝ) (s : GpuBprScratch ℝ) (m : BprCell → ℝ) :
    let m' := (runInstrs (gpuBprAct sig lr reg cols) (gpuSample t l score) s m).2
    m' (.user t.user l) = m (.user t.user l) +
        lr * (sig score * (m (.item t.liked l) - m (.item t.disliked l)) - reg * m (.user t.user l)) ∧
      m' (.item t.liked l) = m (.item t.liked l) +
        lr * (sig score * m (.user t.user l) - reg * m (.item t.liked l)) ∧
      m' (.item t.disliked l) = m (.item t.disliked l) +
        lr * (-sig score * m (.user t.user l) - reg * m (.item t.disliked l)) ∧
      ∀ c, c ≠ .user t.user l → c ≠ .item t.liked l → c ≠ .item t.disliked l → m' c = m c := by
  intro m'
  have hm' : m' = Function.update (Function.update (Function.update m (.item t.liked l)
      (m (.item t.liked l) + lr * (sig score * m (.user t.user l) - reg * m (.item t.liked l))))
      (.item t.disliked l) (m (.item t.disliked l) +
        lr * (-sig score * m (.user t.user l) - reg * m (.item t.disliked l))))
      (.user t.user l) (m (.user t.user l) +
        lr * (sig score * (m (.item t.liked l) - m (.item t.disliked l)) - reg * m (.user t.user l))) := by
    have h1 : BprCell.item t.disliked l ≠ .item t.liked l := by
      intro h; injection h with h _; exact hne h.symm
    simp only [m', gpuSample, runInstrs, gpuBprAct, if_pos hl]
    rw [Function.update_of_ne h1, Function.update_of_ne (by simp), Function.update_of_ne (by simp)]
  rw [hm']
  refine ⟨by simp, ?_, ?_, ?_⟩
  · rw [Function.update_of_ne (by simp), Function.update_of_ne (by
      intro h; injection h with h _; exact hne h), Function.update_self]
  · rw [Function.update_of_ne (by simp), Function.update_self]
  · intro c h1 h2 h3
    rw [Function.update_of_ne h1, Function.update_of_ne h3, Function.update_of_ne h2]

/-- **One BPR sample on the GPU**, by the threads of one block in any interleaving, if `dot` returned the dot product to
every thread (C52) and no other block interferes: the step is the gradient step of the CPU.  Partial: in addition
the last factor of the user moves (C36), by the last equation. -/
theorem C37_gpu_bpr_partial (lr reg : ℝ) (factors : Nat) (verify : Bool) (rows : List (List Nat)) (a b : Nat)
    (t : BprTriple) (ht : gpuChoose verify rows a b = .ok (some t)) (hne : t.liked ≠ t.disliked)
    (m : BprCell → ℝ) (hone : m (.user t.user factors) = 1)
    (score : Fin (factors + 1) → ℝ)
    (hscore : ∀ l, score l = ∑ j ∈ Finset.range (factors + 1),
      m (.user t.user j) * (m (.item t.liked j) - m (.item t.disliked j)))
    (w : List (Fin (factors + 1) × GpuBprInstr ℝ))
    (hw : IsSchedule (gpuBprProg verify rows) (fun l => [(l.val, (a, b), score l)]) w)
    (σ : Fin (factors + 1) → GpuBprScratch ℝ) :
    let m' := (execInterleaved (gpuBprAct bprSig lr reg (factors + 1)) w σ m).2
    ∃ g, IsBprGradient factors (bprObjective factors reg) (bprParams t factors m) g ∧
      (∀ j, j < factors → m' (.user t.user j) = m (.user t.user j) + lr * g.user j) ∧
      (∀ j, j < factors → m' (.item t.liked j) = m (.item t.liked j) + lr * g.liked j) ∧
      (∀ j, j < factors → m' (.item t.disliked j) = m (.item t.disliked j) + lr * g.disliked j) ∧
      m' (.item t.liked factors) = m (.item t.liked factors) + lr * g.likedBias ∧
      m' (.item t.disliked factors) = m (.item t.disliked factors) + lr * g.dislikedBias ∧
      (∀ c, (∀ j, j ≤ factors → c ≠ .user t.user j) → (∀ j, j ≤ factors → c ≠ .item t.liked j) →
        (∀ j, j ≤ factors → c ≠ .item t.disliked j) → m' c = m c) ∧
      m' (.user t.user factors) = 1 + lr * (bprSig ((bprParams t factors m).margin factors) *
        (m (.item t.liked factors) - m (.item t.disliked factors)) - reg) := by
  intro m'
  have hstream : ∀ l, streamOf l w = gpuSample t l.val (score l) := by
    intro l
    rw [hw l]
    simp only [List.flatMap_cons, List.flatMap_nil, List.append_nil]
    exact gpuBprProg_eq verify rows l.val a b (score l) t ht
  let D : Fin (factors + 1) → Set BprCell := fun l => {c | c.coord = l.val}
  have hdis : ∀ l l', l ≠ l' → Disjoint (D l) (D l') := by
    intro l l' hll
    rw [Set.disjoint_left]
    intro c (h1 : c.coord = l.val) (h2 : c.coord = l'.val)
    exact hll (Fin.ext (h1.symm.trans h2))
  have hloc : ∀ p ∈ w, LocalTo (gpuBprAct bprSig lr reg (factors + 1)) (D p.1) p.2 := by
    intro p hp
    have hm := mem_streamOf hp
    rw [hstream] at hm
    exact gpuSample_local _ _ _ _ t _ _ _ hm
  have hmargin : (bprParams t factors m).margin factors = ∑ j ∈ Finset.range (factors + 1),
      m (.user t.user j) * (m (.item t.liked j) - m (.item t.disliked j)) := by
    rw [Finset.sum_range_succ, hone, one_mul]
    rfl
  have hcell : ∀ (j : Nat) (hj : j < factors + 1) (c : BprCell), c.coord = j →
      m' c = (runInstrs (gpuBprAct bprSig lr reg (factors + 1)) (gpuSample t j (score ⟨j, hj⟩)) (σ ⟨j, hj⟩) m).2 c := by
    intro j hj c hc
    have := (exec_project hdis w hloc σ m ⟨j, hj⟩).2 c hc
    rw [hstream] at this
    exact this
  have heff := fun (j : Nat) (hj : j < factors + 1) =>
    gpuSample_effect bprSig lr reg (factors + 1) t hne j hj (score ⟨j, hj⟩) (σ ⟨j, hj⟩) m
  refine ⟨bprGradient factors reg (bprParams t factors m), bprGradient_spec _ _ _, ?_, ?_, ?_, ?_, ?_, ?_, ?_⟩
  · intro j hj
    rw [hcell j (by omega) _ rfl, (heff j (by omega)).1, hscore, ← hmargin]
    rfl
  · intro j hj
    rw [hcell j (by omega) _ rfl, (heff j (by omega)).2.1, hscore, ← hmargin]
    rfl
  · intro j hj
    rw [hcell j (by omega) _ rfl, (heff j (by omega)).2.2.1, hscore, ← hmargin]
    rfl
  · rw [hcell factors (by omega) _ rfl, (heff factors (by omega)).2.1, hscore, ← hmargin, hone, mul_one]
    rfl
  · rw [hcell factors (by omega) _ rfl, (heff factors (by omega)).2.2.1, hscore, ← hmargin, hone, mul_one]
    rfl
  · intro c hu hl hd
    by_cases hc : c.coord < factors + 1
    · rw [hcell c.coord hc c rfl]
      exact (heff c.coord hc).2.2.2 c (hu _ (by omega)) (hl _ (by omega)) (hd _ (by omega))
    · exact exec_frame (D := D) w hloc σ m c (fun l (h : c.coord = l.val) => by have := l.isLt; omega)
  · rw [hcell factors (by omega) _ rfl, (heff factors (by omega)).1, hscore, ← hmargin, hone, mul_one]

/-- A sample, a start with bias column 1 and a schedule satisfying the hypotheses. -/
example : gpuChoose true (bprRows true [[0], [1]]) 0 1 = .ok (some ⟨0, 0, 1⟩) ∧
    IsSchedule (gpuBprProg (R := ℝ) true (bprRows true [[0], [1]])) (fun l : Fin 1 => [(l.val, (0, 1), 0)])
      ((gpuSample ⟨0, 0, 1⟩ 0 0).map fun i => (0, i)) := by
  have h : gpuChoose true (bprRows true [[0], [1]]) 0 1 = .ok (some ⟨0, 0, 1⟩) := by decide +kernel
  refine ⟨h, fun l => ?_⟩
  have : l = 0 := Subsingleton.elim _ _
  subst this
  simp only [List.flatMap_cons, List.flatMap_nil, List.append_nil]
  rw [gpuBprProg_eq _ _ _ _ _ _ _ h]
  simp [streamOf, gpuSample]

/-! ## LMF -/

variable {f : Nat}

theorem lmf_foldl_pos (pos : List (Vec f ℝ × ℝ)) (d : Vec f ℝ) (a : Fin f) :
    pos.foldl lmfPositive d a = d a + (pos.map fun e => e.2 * e.1 a).sum := by
  induction pos generalizing d with
  | nil => simp
  | cons e pos ih =>
    rw [List.foldl_cons, ih, List.map_cons, List.sum_cons]
    simp only [lmfPositive]
    ring

theorem lmf_foldl_posSig (sigm : ℝ → ℝ) (x : Vec f ℝ) (pos : List (Vec f ℝ × ℝ)) (d : Vec f ℝ)
    (a : Fin f) :
    pos.foldl (lmfPositiveSig sigm x) d a =
      d a - (pos.map fun e => sigm (dot x e.1) * e.2 * e.1 a).sum := by
  induction pos generalizing d with
  | nil => simp
  | cons e pos ih =>
    rw [List.foldl_cons, ih, List.map_cons, List.sum_cons]
    simp only [lmfPositiveSig]
    ring

theorem lmf_foldl_neg (sigm : ℝ → ℝ) (x : Vec f ℝ) (neg : List (Vec f ℝ)) (d : Vec f ℝ) (a : Fin f) :
    neg.foldl (lmfNegative sigm x) d a = d a - (neg.map fun y => sigm (dot x y) * y a).sum := by
  induction neg generalizing d with
  | nil => simp
  | cons e neg ih =>
    rw [List.foldl_cons, ih, List.map_cons, List.sum_cons]
    simp only [lmfNegative]
    ring

theorem hasDerivAt_list_sum {A : Type} (l : List A) (F : A → ℝ → ℝ) (F' : A → ℝ) (x : ℝ)
    (h : ∀ a ∈ l, HasDerivAt (F a) (F' a) x) :
    HasDerivAt (fun τ => (l.map fun a => F a τ).sum) (l.map F').sum x := by
  induction l with
  | nil => simpa using hasDerivAt_const x (0 : ℝ)
  | cons a l ih =>
    simp only [List.map_cons, List.sum_cons]
    exact (h a (by simp)).add (ih fun b hb => h b (by simp [hb]))

/-- **The LMF derivative** is the gradient of the log-likelihood with the sampled negatives and the
penalty. -/
theorem C37_lmf (reg : ℝ) (pos : List (Vec f ℝ × ℝ)) (neg : List (Vec f ℝ)) (x : Vec f ℝ) :
    IsGradient (lmfObjective reg pos neg) x
      (fun a => lmfDeriv lmfSigmoid x pos neg a - reg * x a) := by
  intro d
  have hsig : ∀ y, lmfSigmoid y = logistic y := fun y => (C37_sigmoid y).1
  have hlin : ∀ a b : ℝ, HasDerivAt (fun τ : ℝ => a + τ * b) b 0 := by
    intro a b
    simpa using ((hasDerivAt_id (0 : ℝ)).mul_const b).const_add a
  have hdot : ∀ y : Vec f ℝ, HasDerivAt (fun τ : ℝ => ∑ j, (x j + τ * d j) * y j) (∑ j, d j * y j) 0 :=
    fun y => HasDerivAt.fun_sum fun j _ => (hlin (x j) (d j)).mul_const (y j)
  have hlog : ∀ y : Vec f ℝ, HasDerivAt
      (fun τ : ℝ => Real.log (1 + Real.exp (∑ j, (x j + τ * d j) * y j)))
      (logistic (dot x y) * ∑ j, d j * y j) 0 := by
    intro y
    have h0 : (∑ j, (x j + (0 : ℝ) * d j) * y j) = dot x y := by simp [dot]
    have h1 : HasDerivAt (fun y => Real.log (1 + Real.exp y)) (logistic (dot x y))
        (∑ j, (x j + (0 : ℝ) * d j) * y j) := by
      rw [h0]; exact hasDerivAt_log_one_add_exp _
    exact h1.comp 0 (hdot y)
  have hsq : HasDerivAt (fun τ : ℝ => ∑ j, (x j + τ * d j) * (x j + τ * d j))
      (∑ j, 2 * (x j * d j)) 0 := by
    refine HasDerivAt.fun_sum fun j _ => ?_
    have h := (hlin (x j) (d j)).mul (hlin (x j) (d j))
    have e : 2 * (x j * d j) = d j * (x j + 0 * d j) + (x j + 0 * d j) * d j := by ring
    rw [e]
    exact h
  have h1 := hasDerivAt_list_sum pos
    (fun e τ => e.2 * (∑ j, (x j + τ * d j) * e.1 j) -
      e.2 * Real.log (1 + Real.exp (∑ j, (x j + τ * d j) * e.1 j)))
    (fun e => e.2 * (∑ j, d j * e.1 j) - e.2 * (logistic (dot x e.1) * ∑ j, d j * e.1 j)) 0
    (fun e _ => ((hdot e.1).const_mul e.2).sub ((hlog e.1).const_mul e.2))
  have h2 := hasDerivAt_list_sum neg
    (fun y τ => Real.log (1 + Real.exp (∑ j, (x j + τ * d j) * y j)))
    (fun y => logistic (dot x y) * ∑ j, d j * y j) 0 (fun y _ => hlog y)
  have h3 := (h1.sub h2).sub (hsq.const_mul (reg / 2))
  have hswap : ∀ {A : Type} (l : List A) (w : A → ℝ) (y : A → Vec f ℝ),
      (l.map fun e => w e * ∑ j, d j * y e j).sum = ∑ j, (l.map fun e => w e * y e j).sum * d j := by
    intro A l w y
    induction l with
    | nil => simp
    | cons e l ih =>
      simp only [List.map_cons, List.sum_cons]
      rw [ih, Finset.mul_sum, ← Finset.sum_add_distrib]
      exact Finset.sum_congr rfl fun j _ => by ring
  have e : (∑ j, (lmfDeriv lmfSigmoid x pos neg j - reg * x j) * d j) =
      (pos.map fun e => e.2 * (∑ j, d j * e.1 j) -
        e.2 * (logistic (dot x e.1) * ∑ j, d j * e.1 j)).sum -
      (neg.map fun y => logistic (dot x y) * ∑ j, d j * y j).sum -
      reg / 2 * ∑ j, 2 * (x j * d j) := by
    have p1 : (pos.map fun e => e.2 * (∑ j, d j * e.1 j) -
        e.2 * (logistic (dot x e.1) * ∑ j, d j * e.1 j)) =
        pos.map fun e => (e.2 - logistic (dot x e.1) * e.2) * ∑ j, d j * e.1 j :=
      List.map_congr_left fun e _ => by ring
    rw [p1, hswap pos (fun e => e.2 - logistic (dot x e.1) * e.2) Prod.fst,
      hswap neg (fun y => logistic (dot x y)) (fun y => y), Finset.mul_sum, ← Finset.sum_sub_distrib,
      ← Finset.sum_sub_distrib]
    refine Finset.sum_congr rfl fun j _ => ?_
    unfold lmfDeriv
    rw [lmf_foldl_neg, lmf_foldl_posSig, lmf_foldl_pos]
    simp only [hsig]
    have p2 : (pos.map fun e => (e.2 - logistic (dot x e.1) * e.2) * e.1 j).sum =
        (pos.map fun e => e.2 * e.1 j).sum -
        (pos.map fun e => logistic (dot x e.1) * e.2 * e.1 j).sum := by
      clear p1 h1 h3
      induction pos with
      | nil => simp
      | cons e pos ih =>
        simp only [List.map_cons, List.sum_cons]
        rw [ih]
        ring
    rw [p2]
    ring
  rw [e]
  exact h3

/-- **An LMF row update is an ascent step**: every coordinate moves in the direction of the gradient, by a
positive multiple (Adagrad), so the directional derivative of the objective along the step is positive
unless the gradient vanishes. -/
theorem C37_lmf_step (eps lr reg : ℝ) (heps : 0 < eps) (hlr : 0 < lr) (pos : List (Vec f ℝ × ℝ))
    (hpos : pos ≠ []) (neg : List (Vec f ℝ)) (x s : Vec f ℝ) (hs : ∀ a, 0 ≤ s a) :
    let r := lmfRow lmfSigmoid Real.sqrt eps lr reg pos neg x s
    ∃ g, IsGradient (lmfObjective reg pos neg) x g ∧
      (∀ a, ∃ c, 0 < c ∧ r.1 a = x a + c * g a) ∧
      (∀ a, r.2 a = s a + g a * g a) ∧
      ((∃ a, g a ≠ 0) → 0 < ∑ a, g a * (r.1 a - x a)) := by
  intro r
  have hne : pos.isEmpty = false := by simpa using hpos
  set g : Vec f ℝ := fun a => lmfDeriv lmfSigmoid x pos neg a - reg * x a with hg
  have hr1 : ∀ a, r.1 a = x a + lr / Real.sqrt (eps + (s a + g a * g a)) * g a := by
    intro a
    show (lmfRow lmfSigmoid Real.sqrt eps lr reg pos neg x s).1 a = _
    unfold lmfRow
    rw [hne]
    rfl
  have hr2 : ∀ a, r.2 a = s a + g a * g a := by
    intro a
    show (lmfRow lmfSigmoid Real.sqrt eps lr reg pos neg x s).2 a = _
    unfold lmfRow
    rw [hne]
    rfl
  have hc : ∀ a, 0 < lr / Real.sqrt (eps + (s a + g a * g a)) := by
    intro a
    have : 0 < eps + (s a + g a * g a) := by
      have := hs a
      have := mul_self_nonneg (g a)
      linarith
    exact div_pos hlr (Real.sqrt_pos.mpr this)
  refine ⟨g, C37_lmf reg pos neg x, fun a => ⟨_, hc a, hr1 a⟩, hr2, ?_⟩
  rintro ⟨a, ha⟩
  have hterm : ∀ b, g b * (r.1 b - x b) =
      lr / Real.sqrt (eps + (s b + g b * g b)) * (g b * g b) := by
    intro b; rw [hr1 b]; ring
  refine Finset.sum_pos' (fun b _ => ?_) ⟨a, Finset.mem_univ a, ?_⟩
  · rw [hterm b]; exact mul_nonneg (hc b).le (mul_self_nonneg _)
  · rw [hterm a]; exact mul_pos (hc a) (mul_self_pos.mpr ha)

/-- The hypotheses are met by an ordinary sample: user 0 with one factor, liked item 0, disliked item 1. -/
example : ∃ g, IsBprGradient 1 (bprObjective 1 (1 / 100))
    (bprParams ⟨0, 0, 1⟩ 1 fun c => match c with | .user _ 1 => 1 | _ => 1 / 2) g ∧
    (runInstrs (bprAct bprSig (1 / 10) (1 / 100)) (bprUpdateProg 1 ⟨0, 0, 1⟩)
      ⟨0, 0, 0, 0, 0, 0, 0, 0⟩ fun c => match c with | .user _ 1 => 1 | _ => 1 / 2).2 (.item 0 1) =
      1 / 2 + 1 / 10 * g.likedBias := by
  obtain ⟨g, h1, _, _, _, h5, _⟩ := C37_bpr (1 / 10) (1 / 100) 1 ⟨0, 0, 1⟩ (by decide)
    ⟨0, 0, 0, 0, 0, 0, 0, 0⟩ (fun c => match c with | .user _ 1 => 1 | _ => 1 / 2) rfl
  exact ⟨g, h1, h5⟩

/-- A row with one entry, no negative samples: the gradient at zero is `c y / 2`. -/
example : lmfDeriv lmfSigmoid (fun _ : Fin 1 => (0 : ℝ)) [((fun _ => 3), 2)] [] 0 = 3 := by
  rw [show lmfDeriv lmfSigmoid (fun _ : Fin 1 => (0 : ℝ)) [((fun _ => 3), 2)] [] 0 =
    0 + 2 * 3 - lmfSigmoid (dot (fun _ : Fin 1 => (0 : ℝ)) (fun _ => 3)) * 2 * 3 from rfl]
  simp [dot, lmfSigmoid]
  norm_num

end Implicit
