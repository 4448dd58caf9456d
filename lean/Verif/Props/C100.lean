import Verif.Model.Extended
import Verif.Spec.Range
import Verif.Props.C62
/-!
# C100: queries of models with finite factors and overflow
-/

namespace Implicit

section
variable {R : Type} [Field R] [LinearOrder R] [IsStrictOrderedRing R] {f n : Nat}

theorem ofExact_fits {r : Rounding R} {Ω x : R} (h : |r.rnd x| ≤ Ω) : Ext.ofExact r Ω x = .fin (r.rnd x) := by
  unfold Ext.ofExact
  rw [if_pos h]

/-- Bound for everything a subtree computes. -/
def SumTree.reach (r : Rounding R) (x y : Vec f R) (t : SumTree f) : R :=
  (1 + r.u) ^ t.leaves.length * t.mass x y + 2 * t.leaves.length * (1 + r.u) ^ t.leaves.length * r.η

theorem eval_le_reach (r : Rounding R) (x y : Vec f R) (t : SumTree f) : |t.eval r x y| ≤ t.reach r x y := by
  have h1 := t.eval_error r x y
  have h2 := t.abs_exact_le x y
  have h3 : |t.eval r x y| ≤ |t.eval r x y - t.exact x y| + |t.exact x y| := by
    have := abs_add_le (t.eval r x y - t.exact x y) (t.exact x y)
    rwa [sub_add_cancel] at this
  have h4 : 0 ≤ (1 + r.u) ^ t.leaves.length * r.η := mul_nonneg (pow_nonneg (by linarith [r.u_nonneg]) _) r.η_nonneg
  unfold SumTree.reach
  nlinarith

theorem sum_reach_mono (r : Rounding R) (x y : Vec f R) {s t : SumTree f} (hl : s.leaves.length ≤ t.leaves.length)
    (hm : s.mass x y ≤ t.mass x y) : s.reach r x y ≤ t.reach r x y := by
  have h1 : (1 : R) ≤ 1 + r.u := by linarith [r.u_nonneg]
  have h2 : (1 + r.u) ^ s.leaves.length ≤ (1 + r.u) ^ t.leaves.length := pow_le_pow_right₀ h1 hl
  have h3 : (0 : R) ≤ (1 + r.u) ^ s.leaves.length := pow_nonneg (by linarith) _
  have h4 : (s.leaves.length : R) ≤ t.leaves.length := by exact_mod_cast hl
  unfold SumTree.reach
  refine add_le_add (mul_le_mul h2 hm (s.mass_nonneg x y) (h3.trans h2)) (mul_le_mul_of_nonneg_right ?_ r.η_nonneg)
  exact mul_le_mul (by linarith) h2 h3 (by positivity)

/-- If the bound is in range, nothing overflows. -/
theorem extEval_eq (r : Rounding R) (Ω : R) (x y : Vec f R) (t : SumTree f) (h : t.reach r x y ≤ Ω) :
    t.extEval r Ω x y = .fin (t.eval r x y) := by
  induction t with
  | leaf i => exact ofExact_fits ((eval_le_reach r x y (.leaf i)).trans h)
  | add l m ihl ihm =>
    have hl : l.reach r x y ≤ (SumTree.add l m).reach r x y := sum_reach_mono r x y (by simp [SumTree.leaves]) (by
      have := m.mass_nonneg x y
      unfold SumTree.mass at *
      simp only [SumTree.leaves, List.map_append, List.sum_append]
      linarith)
    have hm : m.reach r x y ≤ (SumTree.add l m).reach r x y := sum_reach_mono r x y (by simp [SumTree.leaves]) (by
      have := l.mass_nonneg x y
      unfold SumTree.mass at *
      simp only [SumTree.leaves, List.map_append, List.sum_append]
      linarith)
    unfold SumTree.extEval
    rw [ihl (hl.trans h), ihm (hm.trans h)]
    exact ofExact_fits ((eval_le_reach r x y (.add l m)).trans h)
  | fma i t ih =>
    have ht : t.reach r x y ≤ (SumTree.fma i t).reach r x y := sum_reach_mono r x y (by simp [SumTree.leaves]) (by
      unfold SumTree.mass
      simp only [SumTree.leaves, List.map_cons, List.sum_cons]
      linarith [abs_nonneg (x i * y i)])
    unfold SumTree.extEval
    rw [ih (ht.trans h)]
    exact ofExact_fits ((eval_le_reach r x y (.fma i t)).trans h)

theorem reach_complete (r : Rounding R) (x y : Vec f R) {t : SumTree f} (ht : t.Complete) :
    t.reach r x y = Spec.scoreRange r.u r.η x y := by
  unfold SumTree.reach Spec.scoreRange
  rw [t.mass_complete ht, t.length_complete ht]

/-- **C100** (scores).  Finite factors whose `scoreRange` is within the largest float: whatever the order of summation, nothing overflows on
the way, and the score is the finite number of the model without a largest float. -/
theorem C100_score (r : Rounding R) (Ω : R) (t : SumTree f) (ht : t.Complete) (x y : Vec f R) (h : Spec.scoreRange r.u r.η x y ≤ Ω) :
    t.extEval r Ω x y = .fin (t.eval r x y) ∧ |t.eval r x y| ≤ Spec.scoreRange r.u r.η x y := by
  rw [← reach_complete r x y ht] at h ⊢
  exact ⟨extEval_eq r Ω x y t h, eval_le_reach r x y t⟩

/-- Selection among finite numbers. -/
theorem extSelect_fin (Ω : R) (filter : List (Fin n)) (k : Nat) {scores : Fin n → Ext R} {computed : Fin n → R}
    (h : ∀ j, j ∉ filter → scores j = .fin (computed j)) :
    extSelect Ω filter k scores = (roundSelect (-Ω) filter k computed).map (List.map fun p => (.fin p.1, p.2)) := by
  have e : ((List.finRange n).map fun j => if j ∈ filter then Ext.fin (-Ω) else scores j) =
      ((List.finRange n).map fun j => if j ∈ filter then -Ω else computed j).map Ext.fin := by
    rw [List.map_map]
    refine List.map_congr_left fun j _ => ?_
    simp only [Function.comp_apply]
    split_ifs with hj
    · rfl
    · exact h j hj
  unfold extSelect roundSelect
  rw [e]
  exact rawSelect_map (lt := fun a b : R => decide (a < b)) (lt' := Ext.lt) (f := Ext.fin) (fun a b => rfl) k _

/-- **C100** (`recommend`).  Finite factors; the scores of the items that are not filtered have a `scoreRange` below the largest float (those of
filtered items may overflow): `recommend` returns `k` unfiltered items with finite scores, best first up to the rounding errors. -/
theorem C100_recommend (r : Rounding R) (Ω : R) (order : Fin n → SumTree f) (ho : ∀ j, (order j).Complete) (filter : List (Fin n)) (k : Nat)
    (hk : 1 ≤ k) (q : Vec f R) (items : Fin n → Vec f R) (h : ∀ j, j ∉ filter → Spec.scoreRange r.u r.η q (items j) < Ω)
    (hmany : k ≤ ((List.finRange n).filter fun j => j ∉ filter).length) :
    ∃ out, extRecommend r Ω order filter k q items = .ok (out.map fun p => (.fin p.1, p.2)) ∧
      Spec.ApproxTop k (fun j => j ∉ filter) (fun j => dot q (items j)) (fun j => Spec.scoreError r.u r.η q (items j)) out := by
  have hs := fun j hj => C100_score r Ω (order j) (ho j) q (items j) (h j hj).le
  obtain ⟨out, h1, h2⟩ := C62_recommend r order ho (-Ω) filter k hk q items (fun j hj => by
    have := abs_le.mp (hs j hj).2
    linarith [this.1, h j hj]) hmany
  refine ⟨out, ?_, h2⟩
  unfold extRecommend
  rw [extSelect_fin Ω filter k (computed := roundScores r order q items) fun j hj => (hs j hj).1]
  unfold roundRecommend at h1
  rw [h1]
  rfl

/-- Entries of size at most `B` give a score range of `f B²` and a bit. -/
theorem C100_entries (u η : R) (hu : 0 ≤ u) (x y : Vec f R) (B : R) (hx : ∀ i, |x i| ≤ B) (hy : ∀ i, |y i| ≤ B) :
    Spec.scoreRange u η x y ≤ (1 + u) ^ f * (f * B ^ 2) + 2 * f * (1 + u) ^ f * η := by
  unfold Spec.scoreRange
  have h1 : ∑ i, |x i * y i| ≤ f * B ^ 2 := by
    calc ∑ i, |x i * y i| ≤ ∑ _i : Fin f, B ^ 2 := Finset.sum_le_sum fun i _ => by
          rw [abs_mul, pow_two]
          exact mul_le_mul (hx i) (hy i) (abs_nonneg _) ((abs_nonneg _).trans (hx i))
      _ = _ := by simp
  have := mul_le_mul_of_nonneg_left h1 (pow_nonneg (by linarith) f : 0 ≤ (1 + u) ^ f)
  linarith

end

/-! ## Cosine similarity -/

section
variable {f n : Nat}

theorem abs_cosine_le_one (x y : Vec f ℝ) : |Spec.cosine x y| ≤ 1 := by
  unfold Spec.cosine
  split_ifs with h
  · simp
  · push Not at h
    have h1 := length_pos h.1
    have h2 := length_pos h.2
    rw [abs_div, abs_of_pos (mul_pos h1 h2), div_le_one (mul_pos h1 h2)]
    exact (Finset.abs_sum_le_sum_abs _ _).trans (mass_le_length x y)

/-- The norm of a row in range is the finite number of the model without a largest float, and at most twice the root of the largest float. -/
theorem extNorm_eq (r : Rounding ℝ) (h0 : r.η = 0) (hu : (1 + r.u) ^ (f + 1) < 2) (Ω : ℝ) (hΩ : 16 < Ω) (t : SumTree f) (ht : t.Complete)
    (x : Vec f ℝ) (h : Spec.scoreRange r.u r.η x x ≤ Ω) :
    extNorm r Ω t x = .fin (roundNorm r t x) ∧ roundNorm r t x ≤ 2 * Real.sqrt Ω := by
  have hun := r.u_nonneg
  have h1u : 1 ≤ 1 + r.u := by linarith
  have hu2 : 1 + r.u < 2 := by
    have : (1 + r.u) ^ 1 ≤ (1 + r.u) ^ (f + 1) := pow_le_pow_right₀ h1u (by omega)
    linarith
  have hG : (1 + r.u) ^ f ≤ (1 + r.u) ^ (f + 1) := pow_le_pow_right₀ h1u (by omega)
  obtain ⟨e1, e2⟩ := C100_score r Ω t ht x x h
  have hs4 : 4 ≤ Real.sqrt Ω := Real.le_sqrt_of_sq_le (by linarith)
  have hss : Real.sqrt Ω * Real.sqrt Ω = Ω := Real.mul_self_sqrt (by linarith)
  have hroot : 2 * Real.sqrt Ω ≤ Ω := by nlinarith
  have hnn : 0 ≤ t.eval r x x := by
    have e := C62_score r t ht x x
    rw [h0, scoreError_zero] at e
    have em : ∑ i, |x i * x i| = dot x x := Finset.sum_congr rfl fun i _ => abs_of_nonneg (mul_self_nonneg _)
    rw [em] at e
    have hd : 0 ≤ dot x x := Finset.sum_nonneg fun i _ => mul_self_nonneg _
    nlinarith [(abs_le.mp e).1]
  have hsq : |r.rnd (Real.sqrt (t.eval r x x))| ≤ 2 * Real.sqrt Ω := by
    have a := r.err (Real.sqrt (t.eval r x x))
    rw [h0, add_zero, abs_of_nonneg (Real.sqrt_nonneg _)] at a
    have b : Real.sqrt (t.eval r x x) ≤ Real.sqrt Ω := Real.sqrt_le_sqrt ((le_abs_self _).trans (e2.trans h))
    have c := Real.sqrt_nonneg (t.eval r x x)
    have d := abs_le.mp a
    rw [abs_le]
    constructor <;> nlinarith [d.1, d.2]
  have htiny : |r.rnd (1 / 10 ^ 10)| ≤ 1 := by
    have h3 : (1 : ℝ) / 10 ^ 10 ≤ 1 / 4 := by norm_num
    have h4 : (0 : ℝ) ≤ 1 / 10 ^ 10 := by positivity
    generalize (1 : ℝ) / 10 ^ 10 = z at *
    have a := r.err z
    rw [h0, add_zero, abs_of_nonneg h4] at a
    have d := abs_le.mp a
    rw [abs_le]
    constructor <;> nlinarith [d.1, d.2]
  have hE : Ext.sqrt r Ω (t.extEval r Ω x x) = .fin (r.rnd (Real.sqrt (t.eval r x x))) := by
    rw [e1]
    unfold Ext.sqrt
    simp only
    rw [if_neg (not_lt.mpr hnn)]
    exact ofExact_fits (hsq.trans hroot)
  unfold extNorm roundNorm
  simp only
  rw [hE]
  by_cases hz : r.rnd (Real.sqrt (t.eval r x x)) = 0
  · rw [hz, if_pos rfl, if_pos rfl]
    exact ⟨ofExact_fits (by linarith), by linarith [le_abs_self (r.rnd (1 / 10 ^ 10))]⟩
  · rw [if_neg hz, if_neg fun h => hz (Ext.fin.inj h)]
    exact ⟨rfl, (le_abs_self _).trans hsq⟩

/-- **C100** (`similar_items`).  Without underflow, with the inner products of the query and of every unfiltered item with itself and with each
other in range: the similarities are finite and the guarantees of C62 hold. -/
theorem C100_similar (r : Rounding ℝ) (h0 : r.η = 0) (hu : (1 + r.u) ^ (f + 1) < 2) (hc : Spec.cosineError r.u f ≤ 1) (Ω : ℝ) (hΩ : 16 < Ω)
    (order normOrder : Fin n → SumTree f) (queryOrder : SumTree f) (ho : ∀ j, (order j).Complete) (hno : ∀ j, (normOrder j).Complete)
    (hqo : queryOrder.Complete) (filter : List (Fin n)) (k : Nat) (hk : 1 ≤ k) (q : Vec f ℝ) (items : Fin n → Vec f ℝ)
    (hq : Spec.scoreRange r.u 0 q q ≤ Ω)
    (h : ∀ j, j ∉ filter → Spec.scoreRange r.u 0 q (items j) ≤ Ω ∧ Spec.scoreRange r.u 0 (items j) (items j) ≤ Ω)
    (hmany : k ≤ ((List.finRange n).filter fun j => j ∉ filter).length) :
    ∃ out, extSimilar r Ω order normOrder queryOrder filter k q items = .ok (out.map fun p => (.fin p.1, p.2)) ∧
      Spec.ApproxTop k (fun j => j ∉ filter) (fun j => Spec.cosine q (items j)) (fun _ => Spec.cosineError r.u f) out := by
  rw [← h0] at hq h
  obtain ⟨nq, nb⟩ := extNorm_eq r h0 hu Ω hΩ queryOrder hqo q hq
  have npos := roundNorm_pos r h0 hu queryOrder hqo q
  have hs4 : 4 < Real.sqrt Ω := Real.lt_sqrt_of_sq_lt (by linarith)
  have hss : Real.sqrt Ω * Real.sqrt Ω = Ω := Real.mul_self_sqrt (by linarith)
  have hroot : 4 * Real.sqrt Ω < Ω := by nlinarith
  have steps := fun j => cosine_steps r h0 hu (order j) queryOrder (normOrder j) (ho j) hqo (hno j) q (items j)
  have small : ∀ j, |r.rnd ((order j).eval r q (items j) / roundNorm r (normOrder j) (items j))| < Ω := by
    intro j
    have a := (steps j).1
    have b := abs_cosine_le_one q (items j)
    generalize r.rnd ((order j).eval r q (items j) / roundNorm r (normOrder j) (items j)) = e at *
    have c : |e / roundNorm r queryOrder q| ≤ 2 := by
      have := abs_add_le (e / roundNorm r queryOrder q - Spec.cosine q (items j)) (Spec.cosine q (items j))
      rw [sub_add_cancel] at this
      linarith
    rw [abs_div, abs_of_pos npos, div_le_iff₀ npos] at c
    linarith
  obtain ⟨out, h1, h2⟩ := C62_similar r h0 hu order normOrder queryOrder ho hno hqo (-Ω) filter k hk q items
    (fun j _ => by linarith [(abs_lt.mp (small j)).1]) hmany
  refine ⟨out, ?_, h2⟩
  have hsel : extSelect Ω filter k (fun j => .div r Ω ((order j).extEval r Ω q (items j)) (extNorm r Ω (normOrder j) (items j))) =
      (roundSelect (-Ω) filter k (roundDivide r (roundScores r order q items) fun j => roundNorm r (normOrder j) (items j))).map
        (List.map fun p => (.fin p.1, p.2)) := by
    apply extSelect_fin
    intro j hj
    rw [(C100_score r Ω (order j) (ho j) q (items j) (h j hj).1).1, (extNorm_eq r h0 hu Ω hΩ (normOrder j) (hno j) (items j) (h j hj).2).1]
    unfold Ext.div
    simp only
    rw [if_neg (roundNorm_pos r h0 hu (normOrder j) (hno j) (items j)).ne']
    exact ofExact_fits (small j).le
  unfold extSimilar
  rw [hsel, nq]
  unfold roundSimilar at h1
  simp only at h1
  cases hr : roundSelect (-Ω) filter k (roundDivide r (roundScores r order q items) fun j => roundNorm r (normOrder j) (items j)) with
  | error e => rw [hr] at h1; exact absurd h1 (by simp [bind, Except.bind])
  | ok o =>
    rw [hr] at h1
    have h1' : o.map (fun p => (r.rnd (p.1 / roundNorm r queryOrder q), p.2)) = out := by
      simpa [bind, Except.bind, pure, Except.pure] using h1
    show Except.ok _ = Except.ok _
    congr 1
    rw [← h1', List.map_map, List.map_map]
    refine List.map_congr_left fun p hp => ?_
    simp only [Function.comp_apply, Prod.mk.injEq, and_true]
    unfold Ext.div
    simp only
    rw [if_neg npos.ne']
    apply ofExact_fits
    have hm : (r.rnd (p.1 / roundNorm r queryOrder q), p.2) ∈ out := by
      rw [← h1']
      exact List.mem_map.mpr ⟨p, hp, rfl⟩
    obtain ⟨i, -, -, hi⟩ := h2.mem _ hm
    have b := abs_cosine_le_one q (items i)
    simp only at hi
    have := abs_add_le (r.rnd (p.1 / roundNorm r queryOrder q) - Spec.cosine q (items i)) (Spec.cosine q (items i))
    rw [sub_add_cancel] at this
    linarith

end

end Implicit
