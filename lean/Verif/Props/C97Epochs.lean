import Verif.Props.C97Sample
/-!
# C97: BPR training in floating point stays in range — all samples
-/

set_option linter.unusedSectionVars false

namespace Implicit

open Spec

/-- The energy of all rows but three changes by nothing. -/
theorem energy_change {users items factors : Nat} {x x' : BprCell → ℝ} {t : BprTriple} (hu : t.user < users) (hl : t.liked < items)
    (hd : t.disliked < items) (hne : t.liked ≠ t.disliked)
    (huser : ∀ v, v ≠ t.user → ∀ j < factors, x' (.user v j) = x (.user v j))
    (hitem : ∀ i, i ≠ t.liked → i ≠ t.disliked → ∀ j ≤ factors, x' (.item i j) = x (.item i j)) :
    trainingEnergy users items factors x' = trainingEnergy users items factors x -
        (tripleSum (fun j => x (.user t.user j)) (fun j => x (.item t.liked j)) (fun j => x (.item t.disliked j)) factors +
          2 * x (.item t.liked factors) ^ 2 + 2 * x (.item t.disliked factors) ^ 2) +
        (tripleSum (fun j => x' (.user t.user j)) (fun j => x' (.item t.liked j)) (fun j => x' (.item t.disliked j)) factors +
          2 * x' (.item t.liked factors) ^ 2 + 2 * x' (.item t.disliked factors) ^ 2) ∧
      tripleSum (fun j => x (.user t.user j)) (fun j => x (.item t.liked j)) (fun j => x (.item t.disliked j)) factors +
          2 * x (.item t.liked factors) ^ 2 + 2 * x (.item t.disliked factors) ^ 2 ≤ trainingEnergy users items factors x := by
  let uE : (BprCell → ℝ) → Nat → ℝ := fun m u => ∑ j ∈ Finset.range factors, m (.user u j) ^ 2
  let iE : (BprCell → ℝ) → Nat → ℝ := fun m i => ∑ j ∈ Finset.range factors, m (.item i j) ^ 2 + 2 * m (.item i factors) ^ 2
  have hE : ∀ m, trainingEnergy users items factors m =
      ∑ u ∈ Finset.range users, uE m u + ∑ i ∈ Finset.range items, iE m i := fun m => rfl
  have uE0 : ∀ m u, 0 ≤ uE m u := fun m u => Finset.sum_nonneg fun j _ => sq_nonneg _
  have iE0 : ∀ m i, 0 ≤ iE m i := fun m i => by
    have : 0 ≤ ∑ j ∈ Finset.range factors, m (.item i j) ^ 2 := Finset.sum_nonneg fun j _ => sq_nonneg _
    have := sq_nonneg (m (.item i factors))
    simp only [iE]
    linarith
  have hT : ∀ m : BprCell → ℝ, tripleSum (fun j => m (.user t.user j)) (fun j => m (.item t.liked j)) (fun j => m (.item t.disliked j)) factors +
      2 * m (.item t.liked factors) ^ 2 + 2 * m (.item t.disliked factors) ^ 2 = uE m t.user + iE m t.liked + iE m t.disliked := fun m => by
    simp only [uE, iE, tripleSum, Finset.sum_add_distrib]
    ring
  have hu' := sum_change_one (S := Finset.range users) (a := uE x) (a' := uE x') (Finset.mem_range.mpr hu) fun v hv =>
    Finset.sum_congr rfl fun j hj => by rw [huser v hv j (Finset.mem_range.mp hj)]
  have hi' := sum_change_two (S := Finset.range items) (a := iE x) (a' := iE x') (Finset.mem_range.mpr hl)
    (Finset.mem_range.mpr hd) hne fun i h1 h2 => by
      simp only [iE]
      rw [hitem i h1 h2 factors le_rfl]
      congr 1
      exact Finset.sum_congr rfl fun j hj => by rw [hitem i h1 h2 j (Finset.mem_range.mp hj).le]
  have hsu : uE x t.user ≤ ∑ u ∈ Finset.range users, uE x u :=
    Finset.single_le_sum (f := uE x) (fun u _ => uE0 x u) (Finset.mem_range.mpr hu)
  have hsi : iE x t.liked + iE x t.disliked ≤ ∑ i ∈ Finset.range items, iE x i := by
    rw [← Finset.sum_pair (f := iE x) hne]
    refine Finset.sum_le_sum_of_subset_of_nonneg ?_ fun i _ _ => iE0 x i
    intro i hi
    rcases Finset.mem_insert.mp hi with rfl | hi
    · exact Finset.mem_range.mpr hl
    · rw [Finset.mem_singleton.mp hi]
      exact Finset.mem_range.mpr hd
  rw [hT, hT, hE, hE, hu', hi']
  constructor <;> linarith

section
variable {r : Rounding ℝ} {u η Ω lr reg E : ℝ} {users items factors : Nat} (hu : r.u ≤ u) (hη : r.η ≤ η) (hr : r.Orderly 2)
  (P : BprRange u η Ω lr reg factors E) {sig : Option ℝ → Option ℝ} (hsig : GoodSig sig (E + 1)) (half : Option ℝ)
include hu hη hr P hsig

/-- **One sample.** -/
theorem float_update_energy {t : BprTriple} (htu : t.user < users) (htl : t.liked < items) (htd : t.disliked < items)
    (hne : t.liked ≠ t.disliked) (s : BprScratch (Option ℝ)) {m : BprCell → Option ℝ} {x : BprCell → ℝ}
    (hx : HasValues users items factors m x) (h1 : x (.user t.user factors) = 1) (hE : trainingEnergy users items factors x ≤ E) :
    ∃ x', HasValues users items factors
        (runInstrs ((limitOps r Ω).bprAct sig half (some lr) (some reg)) (bprUpdateProg factors t) s m).2 x' ∧
      (∀ v < users, x' (.user v factors) = x (.user v factors)) ∧
      trainingEnergy users items factors x' ≤
        floatGrowth u lr reg factors * trainingEnergy users items factors x + floatGain u lr := by
  obtain ⟨e1, e2, e3, e4, e5⟩ := float_update_effect (limitOps r Ω) sig half (some lr) (some reg) factors t hne s m
  have hframe := fun c h1 h2 h3 => floatUpdate_frame (limitOps r Ω) sig half (some lr) (some reg) factors t c h1 h2 h3 s m
  set m' := (runInstrs ((limitOps r Ω).bprAct sig half (some lr) (some reg)) (bprUpdateProg factors t) s m).2 with hm'
  obtain ⟨-, hloc⟩ := energy_change (x := x) (x' := x) htu htl htd hne (fun _ _ _ _ => rfl) (fun _ _ _ _ _ => rfl)
  obtain ⟨a', b', c', ka, kb, kc, kE⟩ := float_rows hu hη hr P hsig (t := t) (m := m) (m' := m')
    (a := fun j => x (.user t.user j)) (b := fun j => x (.item t.liked j)) (c := fun j => x (.item t.disliked j))
    (fun j hj => hx.1 _ htu j hj) (fun j hj => hx.2 _ htl j hj) (fun j hj => hx.2 _ htd j hj) h1 (hloc.trans hE) rfl e1 e2 e3 e4 e5
  have hfu : ∀ v j, ¬ (v = t.user ∧ j < factors) → m' (.user v j) = m (.user v j) := fun v j h =>
    hframe _ (fun j' hj' hc => h (by cases hc; exact ⟨rfl, hj'⟩)) (by simp) (by simp)
  have hfi : ∀ i j, i ≠ t.liked → i ≠ t.disliked → m' (.item i j) = m (.item i j) := fun i j h1 h2 =>
    hframe _ (by simp) (fun j' _ hc => h1 (by cases hc; rfl)) (fun j' _ hc => h2 (by cases hc; rfl))
  let x' : BprCell → ℝ := fun c => match c with
    | .user v j => if v = t.user ∧ j < factors then a' j else x (.user v j)
    | .item i j => if i = t.liked then b' j else if i = t.disliked then c' j else x (.item i j)
  have xu : ∀ v j, x' (.user v j) = if v = t.user ∧ j < factors then a' j else x (.user v j) := fun _ _ => rfl
  have xi : ∀ i j, x' (.item i j) = if i = t.liked then b' j else if i = t.disliked then c' j else x (.item i j) := fun _ _ => rfl
  have xl : ∀ j, x' (.item t.liked j) = b' j := fun j => by rw [xi, if_pos rfl]
  have xd : ∀ j, x' (.item t.disliked j) = c' j := fun j => by rw [xi, if_neg hne.symm, if_pos rfl]
  refine ⟨x', ⟨fun v hv j hj => ?_, fun i hi j hj => ?_⟩, fun v hv => ?_, ?_⟩
  · rw [xu]
    split
    · rename_i h
      obtain ⟨rfl, h⟩ := h
      exact ka j h
    · rename_i h
      rw [hfu v j h]
      exact hx.1 v hv j hj
  · rw [xi]
    split
    · rename_i h
      rw [h]
      exact kb j hj
    · rename_i h
      split
      · rename_i h'
        rw [h']
        exact kc j hj
      · rename_i h'
        rw [hfi i j h h']
        exact hx.2 i hi j hj
  · rw [xu, if_neg (fun h => lt_irrefl _ h.2)]
  · obtain ⟨hch, -⟩ := energy_change (x := x) (x' := x') htu htl htd hne
      (fun v hv j _ => by rw [xu, if_neg (fun h => hv h.1)]) (fun i h1 h2 j _ => by rw [xi, if_neg h1, if_neg h2])
    have hT : tripleSum (fun j => x' (.user t.user j)) (fun j => x' (.item t.liked j)) (fun j => x' (.item t.disliked j)) factors =
        tripleSum a' b' c' factors := by
      refine Finset.sum_congr rfl fun j hj => ?_
      have hj := Finset.mem_range.mp hj
      dsimp only
      rw [xl, xd, xu, if_pos ⟨rfl, hj⟩]
    rw [hT, xl, xd] at hch
    have hG := floatGrowth_ge P
    have := mul_le_mul_of_nonneg_left hloc (show 0 ≤ floatGrowth u lr reg factors - 1 by linarith)
    rw [hch]
    linarith

/-- The samples of the thread, one after the other. -/
theorem float_samples (matrix : List (List Nat)) (hm : matrix.length ≤ users) (hcols : ∀ u i, Likes matrix u i → i < items) :
    ∀ (ds : List (Nat × Nat)), (∀ d ∈ ds, d.1 < nnz matrix ∧ d.2 < nnz matrix) → ∀ (s : BprScratch (Option ℝ)) (m : BprCell → Option ℝ)
      (x : BprCell → ℝ), HasValues users items factors m x → (∀ u, u < users → x (.user u factors) = 1) →
      floatGrowth u lr reg factors ^ ds.length * (trainingEnergy users items factors x + ds.length * floatGain u lr) ≤ E →
      ∃ x', HasValues users items factors (runInstrs ((limitOps r Ω).bprAct sig half (some lr) (some reg))
          (ds.flatMap (bprProg true (bprRows true matrix) factors)) s m).2 x' ∧
        (∀ u, u < users → x' (.user u factors) = 1) ∧
        trainingEnergy users items factors x' ≤
          floatGrowth u lr reg factors ^ ds.length * (trainingEnergy users items factors x + ds.length * floatGain u lr)
  | [], _, s, m, x, hx, hone, _ => ⟨x, hx, hone, by simp⟩
  | d :: ds, hds, s, m, x, hx, hone, hE => by
    have hG1 := floatGrowth_ge P
    have hg0 := floatGain_nonneg P
    have hE0 := trainingEnergy_nonneg (users := users) (items := items) (factors := factors) x
    set G := floatGrowth u lr reg factors with hG
    set g := floatGain u lr with hg
    have hpow1 : 1 ≤ G ^ ds.length := one_le_pow₀ hG1
    have hdg : (0 : ℝ) ≤ ds.length * g := by positivity
    have hdG : ds.length * g ≤ G * (ds.length * g) := le_mul_of_one_le_left hdg hG1
    have hgG : g ≤ G * g := le_mul_of_one_le_left hg0 hG1
    have hstep : ∃ x1, HasValues users items factors (runInstrs ((limitOps r Ω).bprAct sig half (some lr) (some reg))
          (bprProg true (bprRows true matrix) factors d) s m).2 x1 ∧ (∀ v < users, x1 (.user v factors) = 1) ∧
        trainingEnergy users items factors x1 ≤ G * trainingEnergy users items factors x + g := by
      obtain ⟨h1, h2⟩ := hds d (by simp)
      obtain ⟨u', i, j, hs, ⟨u'', hs'⟩, h | h⟩ := C35_choice true matrix d.1 d.2 h1 h2
      · unfold bprProg
        rw [h.1]
        refine ⟨x, hx, hone, ?_⟩
        have := le_mul_of_one_le_left hE0 hG1
        linarith
      · unfold bprProg
        rw [h.1]
        have huu : u' < users := by
          obtain ⟨r, hr, _⟩ := hs
          exact lt_of_lt_of_le (List.getElem?_eq_some_iff.mp hr).1 hm
        have hEx : trainingEnergy users items factors x ≤ E := by
          refine le_trans ?_ hE
          have hp : 1 ≤ G ^ (d :: ds).length := one_le_pow₀ hG1
          have hn : 0 ≤ ((d :: ds).length : ℝ) * g := by positivity
          have := le_mul_of_one_le_left (show 0 ≤ trainingEnergy users items factors x + ((d :: ds).length : ℝ) * g by linarith) hp
          linarith
        obtain ⟨x1, k1, k2, k3⟩ := float_update_energy hu hη hr P hsig half (t := ⟨u', i, j⟩) huu (hcols _ _ hs) (hcols _ _ hs')
          (fun hij => h.2 rfl (by change i = j at hij; rw [← hij]; exact hs)) s hx (hone u' huu) hEx
        exact ⟨x1, k1, fun v hv => by rw [k2 v hv, hone v hv], k3⟩
    obtain ⟨x1, k1, k2, k3⟩ := hstep
    have hle : G ^ ds.length * (trainingEnergy users items factors x1 + ds.length * g) ≤
        G ^ (d :: ds).length * (trainingEnergy users items factors x + ((d :: ds).length : ℝ) * g) := by
      rw [List.length_cons, pow_succ, mul_assoc]
      refine mul_le_mul_of_nonneg_left ?_ (by positivity)
      push_cast
      linarith
    obtain ⟨x2, q1, q2, q3⟩ := float_samples matrix hm hcols ds (fun d' h' => hds d' (by simp [h']))
      (runInstrs ((limitOps r Ω).bprAct sig half (some lr) (some reg)) (bprProg true (bprRows true matrix) factors d) s m).1 _ x1 k1 k2
      (hle.trans hE)
    refine ⟨x2, ?_, q2, q3.trans hle⟩
    rw [List.flatMap_cons, run_append]
    exact q1

/-- **The epochs.** -/
theorem float_epochs {Th : Type} [DecidableEq Th] [Unique Th] [Fintype Th] (matrix : List (List Nat)) (hm : matrix.length ≤ users)
    (hcols : ∀ u i, Likes matrix u i → i < items) (σ : Th → BprScratch (Option ℝ)) :
    ∀ (epochs : List (BprEpoch Th)), (∀ e ∈ epochs, e.Valid true (bprRows true matrix) factors) → ∀ (m : BprCell → Option ℝ)
      (x : BprCell → ℝ), HasValues users items factors m x → (∀ u, u < users → x (.user u factors) = 1) →
      floatGrowth u lr reg factors ^ (epochs.length * nnz matrix) *
        (trainingEnergy users items factors x + (epochs.length * nnz matrix : Nat) * floatGain u lr) ≤ E →
      ∃ x', HasValues users items factors ((limitOps r Ω).bprEpochs sig half (some lr) (some reg) σ epochs m) x' ∧
        (∀ u, u < users → x' (.user u factors) = 1) ∧
        trainingEnergy users items factors x' ≤ floatGrowth u lr reg factors ^ (epochs.length * nnz matrix) *
          (trainingEnergy users items factors x + (epochs.length * nnz matrix : Nat) * floatGain u lr)
  | [], _, m, x, hx, hone, _ => ⟨x, hx, hone, by simp⟩
  | e :: es, he, m, x, hx, hone, hE => by
    have hv := he e (by simp)
    have hlen : (e.draws default).length = nnz matrix := by
      have := hv.samples
      rw [Fintype.sum_unique, bprRows_nnz] at this
      exact this
    have hG1 := floatGrowth_ge P
    have hg0 := floatGain_nonneg P
    have hE0 := trainingEnergy_nonneg (users := users) (items := items) (factors := factors) x
    set G := floatGrowth u lr reg factors with hG
    set g := floatGain u lr with hg
    have hrun : ((limitOps r Ω).bprEpoch sig half (some lr) (some reg) σ e m).2 =
        (runInstrs ((limitOps r Ω).bprAct sig half (some lr) (some reg))
          ((e.draws default).flatMap (bprProg true (bprRows true matrix) factors)) (σ default).fresh m).2 := by
      unfold FloatOps.bprEpoch
      rw [exec_unique, hv.schedule default]
    have hN : (0 : ℝ) ≤ (es.length * nnz matrix : ℝ) * g := by positivity
    have hn : (0 : ℝ) ≤ (nnz matrix : ℝ) * g := by positivity
    have hPes : 1 ≤ G ^ (es.length * nnz matrix) := one_le_pow₀ hG1
    have hPn : 1 ≤ G ^ nnz matrix := one_le_pow₀ hG1
    have hall : G ^ (es.length * nnz matrix) * (G ^ nnz matrix * (trainingEnergy users items factors x + nnz matrix * g) +
        (es.length * nnz matrix : ℝ) * g) ≤ G ^ ((e :: es).length * nnz matrix) *
          (trainingEnergy users items factors x + ((e :: es).length * nnz matrix : Nat) * g) := by
      rw [List.length_cons, Nat.succ_mul, pow_add, mul_assoc (G ^ (es.length * nnz matrix))]
      refine mul_le_mul_of_nonneg_left ?_ (by linarith)
      push_cast
      have h2 := mul_le_mul_of_nonneg_right hPn hN
      linarith
    have hfirst : G ^ nnz matrix * (trainingEnergy users items factors x + nnz matrix * g) ≤ E := by
      refine le_trans ?_ (hall.trans hE)
      have h0 : 0 ≤ G ^ nnz matrix * (trainingEnergy users items factors x + nnz matrix * g) := mul_nonneg (by linarith) (by linarith)
      have := le_mul_of_one_le_left (show 0 ≤ G ^ nnz matrix * (trainingEnergy users items factors x + nnz matrix * g) +
        (es.length * nnz matrix : ℝ) * g by linarith) hPes
      linarith
    have hstep := float_samples hu hη hr P hsig half (users := users) (items := items) matrix hm hcols (e.draws default)
      (fun d hd => by have := hv.draws default d hd; rwa [bprRows_nnz] at this) (σ default).fresh m x hx hone
    rw [← hrun, hlen] at hstep
    obtain ⟨x1, k1, k2, k3⟩ := hstep hfirst
    have hle : G ^ (es.length * nnz matrix) * (trainingEnergy users items factors x1 + (es.length * nnz matrix : Nat) * g) ≤
        G ^ ((e :: es).length * nnz matrix) * (trainingEnergy users items factors x + ((e :: es).length * nnz matrix : Nat) * g) := by
      refine le_trans (mul_le_mul_of_nonneg_left ?_ (by linarith)) hall
      push_cast
      linarith
    obtain ⟨x2, q1, q2, q3⟩ := float_epochs matrix hm hcols σ es (fun e' h' => he e' (by simp [h'])) _ x1 k1 k2 (hle.trans hE)
    exact ⟨x2, q1, q2, q3.trans hle⟩

/-- **C97** (`fit` of BPR with one thread and `verify_negative_samples`, in floating point with overflow): as long as the bound
`G ^ n (E₀ + n g)` on the energy after all `n` samples — with the growth `G` and the gain `g` of one sample, rounding included —
stays below `E`, and the range of floating point is at least `10 (E + 1)`, `fit` returns without `ModelFitError`, no factor is
infinite or NaN, and the energy is below the bound; whatever the samples are. -/
theorem C97_fit {Th : Type} [DecidableEq Th] [Unique Th] [Fintype Th] (matrix : List (List Nat)) (hm : matrix.length ≤ users)
    (hcols : ∀ u i, Likes matrix u i → i < items) (σ : Th → BprScratch (Option ℝ)) (epochs : List (BprEpoch Th))
    (he : ∀ e ∈ epochs, e.Valid true (bprRows true matrix) factors) (m : BprCell → Option ℝ)
    (x : BprCell → ℝ) (hx : HasValues users items factors m x) (hone : ∀ u, u < users → x (.user u factors) = 1)
    (hE : floatGrowth u lr reg factors ^ (epochs.length * nnz matrix) *
      (trainingEnergy users items factors x + (epochs.length * nnz matrix : Nat) * floatGain u lr) ≤ E) :
    ∃ m' x', (limitOps r Ω).bprFit users items factors sig half (some lr) (some reg) σ epochs m = .ok m' ∧
      HasValues users items factors m' x' ∧ (∀ u, u < users → x' (.user u factors) = 1) ∧
      trainingEnergy users items factors x' ≤ floatGrowth u lr reg factors ^ (epochs.length * nnz matrix) *
        (trainingEnergy users items factors x + (epochs.length * nnz matrix : Nat) * floatGain u lr) := by
  obtain ⟨x', k1, k2, k3⟩ := float_epochs hu hη hr P hsig half matrix hm hcols σ epochs he m x hx hone hE
  refine ⟨_, x', ?_, k1, k2, k3⟩
  unfold FloatOps.bprFit
  set m' := (limitOps r Ω).bprEpochs sig half (some lr) (some reg) σ epochs m with hm'
  have hno : ∀ (n : Nat) (f : Nat → Vec (factors + 1) (Option ℝ)), (∀ v < n, ∀ j, ∃ y, f v j = some y) →
      anyNaN (limitOps r Ω).isNaN ((List.range n).map f) = false := fun n f hf => by
    rw [Bool.eq_false_iff]
    intro h
    obtain ⟨w, hw, h⟩ := List.any_eq_true.mp h
    obtain ⟨v, hv, rfl⟩ := List.mem_map.mp hw
    obtain ⟨j, -, hj⟩ := List.any_eq_true.mp h
    obtain ⟨y, hy⟩ := hf v (List.mem_range.mp hv) j
    rw [hy] at hj
    cases hj
  simp only [bind, Except.bind, checkFitErrors,
    hno users (fun v j => m' (.user v j)) (fun v hv j => ⟨_, k1.1 v hv j (Nat.lt_succ_iff.mp j.2)⟩),
    hno items (fun v j => m' (.item v j)) (fun v hv j => ⟨_, k1.2 v hv j (Nat.lt_succ_iff.mp j.2)⟩)]
  rfl

end

end Implicit
