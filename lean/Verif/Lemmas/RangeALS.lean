import Verif.Model.RangeALS
import Verif.Props.C100
import Verif.Lemmas.RoundALS
/-!
# Overflow in the systems of ALS
-/

set_option linter.unusedSectionVars false

namespace Implicit

variable {f : Nat}

theorem limit_fits {r : Rounding ℝ} {Ω x : ℝ} (h : |r.rnd x| ≤ Ω) : limit r Ω x = some (r.rnd x) := if_pos h

theorem rangeEval_eq (r : Rounding ℝ) (Ω : ℝ) (x y : Vec f ℝ) (t : SumTree f) (h : t.reach r x y ≤ Ω) :
    t.rangeEval r Ω (known x) (known y) = some (t.eval r x y) := by
  induction t with
  | leaf i => exact limit_fits ((eval_le_reach r x y (.leaf i)).trans h)
  | add l m ihl ihm =>
    have hl : l.reach r x y ≤ (SumTree.add l m).reach r x y := sum_reach_mono r x y (by simp [SumTree.leaves]) (by
      have := m.mass_nonneg x y
      unfold SumTree.mass at *
      simp only [SumTree.leaves, List.map_append, List.sum_append]
      linarith)
    have hm : m.reach r x y ≤ (SumTree.add l m).reach r x y := sum_reach_mono r x y (by simp [SumTree.leaves]) (by
      have := l.mass_nonneg x y
      unfold SumTree.mass at *
      simp only [SumTree.leaves, List.map_append, List.sum_append]
      linarith)
    unfold SumTree.rangeEval
    rw [ihl (hl.trans h), ihm (hm.trans h)]
    exact limit_fits ((eval_le_reach r x y (.add l m)).trans h)
  | fma i t ih =>
    have ht : t.reach r x y ≤ (SumTree.fma i t).reach r x y := sum_reach_mono r x y (by simp [SumTree.leaves]) (by
      unfold SumTree.mass
      simp only [SumTree.leaves, List.map_cons, List.sum_cons]
      linarith [abs_nonneg (x i * y i)])
    unfold SumTree.rangeEval
    rw [ih (ht.trans h)]
    exact limit_fits ((eval_le_reach r x y (.fma i t)).trans h)

section
variable {r : Rounding ℝ} {Ω : ℝ} (h0 : r.η = 0)
include h0

theorem abs_rnd_le {x M : ℝ} (h : |x| ≤ M) : |r.rnd x| ≤ (1 + r.u) * M := by
  have h1 := r.err x
  rw [h0, add_zero] at h1
  have h2 : |r.rnd x| ≤ |r.rnd x - x| + |x| := by
    have := abs_add_le (r.rnd x - x) x
    rwa [sub_add_cancel] at this
  have := mul_le_mul_of_nonneg_left h (show 0 ≤ 1 + r.u by linarith [r.u_nonneg])
  nlinarith

/-- The Gram matrix. -/
theorem rangeGram_eq (Y : List (Vec f ℝ)) (hY : 0 < Y.length) (order : GramOrder f) (ho : ∀ n h a b, (order n h a b).Complete)
    (h : ∀ a b, (1 + r.u) ^ Y.length * (Y.map fun y => |y a| * |y b|).sum ≤ Ω) (a b : Fin f) :
    rangeGram r Ω order (Y.map known) a b = some (roundGram r Y (order _ hY) a b) := by
  unfold rangeGram roundGram
  rw [dif_pos (by rwa [List.length_map])]
  have key : ∀ n (hn : n = Y.length) (hp : 0 < n), (order n hp a b).rangeEval r Ω (fun i : Fin n => some ((Y[i.1]'(hn ▸ i.2)) a))
      (fun i : Fin n => some ((Y[i.1]'(hn ▸ i.2)) b)) = some ((order Y.length hY a b).eval r (fun i => Y[i] a) (fun i => Y[i] b)) := by
    rintro n rfl -
    refine rangeEval_eq r Ω (fun i => Y[i] a) (fun i => Y[i] b) _ ?_
    rw [reach_complete r _ _ (ho _ hY a b)]
    unfold Spec.scoreRange
    rw [h0, mul_zero, add_zero]
    refine le_trans (le_of_eq ?_) (h a b)
    congr 1
    simp only [abs_mul]
    rw [← List.sum_ofFn]
    congr 1
    refine List.ext_getElem (by simp) fun i h1 h2 => ?_
    simp
  have hpos : 0 < (Y.map (known (f := f))).length := by rwa [List.length_map]
  rw [← key _ (List.length_map _) hpos]
  congr 1 <;> funext i <;> simp [known]

variable (fused : Bool)

theorem range_axpy {t y s P : ℝ} (hp : |t * y| ≤ P) (hP : (1 + r.u) * P ≤ Ω) (hs : |(roundOps r fused).axpy t y s| ≤ Ω) :
    (rangeOps r fused Ω).axpy (some t) (some y) (some s) = some ((roundOps r fused).axpy t y s) := by
  cases fused with
  | true => exact limit_fits hs
  | false =>
    show (limit r Ω (t * y)).bind (fun p => limit r Ω (s + p)) = _
    rw [limit_fits ((abs_rnd_le h0 hp).trans hP)]
    exact limit_fits hs

/-- One entry of a row. -/
theorem range_accumulate (s : Mat f ℝ × Vec f ℝ) (e : Vec f ℝ × ℝ) (hQ : (1 + r.u) ^ 5 * (|e.2| + 1) ≤ Ω)
    (hQy : ∀ a, (1 + r.u) ^ 5 * ((|e.2| + 1) * |e.1 a|) ≤ Ω) (hQyy : ∀ a b, (1 + r.u) ^ 5 * ((|e.2| + 1) * |e.1 a| * |e.1 b|) ≤ Ω)
    (h1 : ∀ a b, |((roundOps r fused).accumulate s e).1 a b| ≤ Ω) (h2 : ∀ a, |((roundOps r fused).accumulate s e).2 a| ≤ Ω) :
    (rangeOps r fused Ω).accumulate (fun a => known (s.1 a), known s.2) (known e.1, some e.2) =
      (fun a => known (((roundOps r fused).accumulate s e).1 a), known ((roundOps r fused).accumulate s e).2) := by
  have hu : 1 ≤ 1 + r.u := by linarith [r.u_nonneg]
  have hw : ∀ k, k ≤ 5 → ∀ M, 0 ≤ M → (1 + r.u) ^ k * M ≤ (1 + r.u) ^ 5 * M := fun k hk M hM =>
    mul_le_mul_of_nonneg_right (pow_le_pow_right₀ hu hk) hM
  obtain ⟨y, c⟩ := e
  dsimp only at hQ hQy hQyy
  have hc0 : 0 ≤ |c| := abs_nonneg c
  have hp0 : ∀ k : Nat, 0 ≤ (1 + r.u) ^ k := fun k => pow_nonneg (by linarith) k
  unfold FloatOps.accumulate at h1 h2 ⊢
  have elt : (rangeOps r fused Ω).lt (rangeOps r fused Ω).zero (some c) = (roundOps r fused).lt (roundOps r fused).zero c := rfl
  -- the product with a component, and the sum
  have step : ∀ (w : ℝ), |w| ≤ (1 + r.u) ^ 3 * (|c| + 1) → (∀ a b, |(roundOps r fused).axpy ((roundOps r fused).mul w (y a)) (y b) (s.1 a b)| ≤ Ω) →
      (fun a b => (rangeOps r fused Ω).axpy ((rangeOps r fused Ω).mul (some w) (known y a)) (known y b) (known (s.1 a) b)) =
        fun a => known fun b => (roundOps r fused).axpy ((roundOps r fused).mul w (y a)) (y b) (s.1 a b) := by
    intro w hw3 hs
    funext a b
    have e1 : |w * y a| ≤ (1 + r.u) ^ 3 * ((|c| + 1) * |y a|) := by
      rw [abs_mul, ← mul_assoc]
      exact mul_le_mul_of_nonneg_right hw3 (abs_nonneg _)
    have e2 := abs_rnd_le h0 e1
    rw [← mul_assoc, ← pow_succ'] at e2
    have e3 : (rangeOps r fused Ω).mul (some w) (known y a) = some (r.rnd (w * y a)) :=
      limit_fits (e2.trans ((hw 4 (by omega) _ (by positivity)).trans (hQy a)))
    rw [e3]
    refine range_axpy h0 fused (P := (1 + r.u) ^ 4 * ((|c| + 1) * |y a| * |y b|)) ?_ ?_ (hs a b)
    · rw [abs_mul, ← mul_assoc]
      exact mul_le_mul_of_nonneg_right e2 (abs_nonneg _)
    · rw [← mul_assoc, ← pow_succ']
      exact hQyy a b
  by_cases hc : (roundOps r fused).lt (roundOps r fused).zero c = true
  · rw [if_pos hc] at h1 h2 ⊢
    rw [elt, if_pos hc]
    have e1 : |c - 1| ≤ |c| + 1 := by
      have := abs_sub c 1
      rwa [abs_one] at this
    have e2 := abs_rnd_le h0 e1
    have e3 : (rangeOps r fused Ω).sub (some c) (rangeOps r fused Ω).one = some (r.rnd (c - 1)) :=
      limit_fits (e2.trans (by
        have := hw 1 (by omega) _ (show 0 ≤ |c| + 1 by positivity)
        rw [pow_one] at this
        exact this.trans hQ))
    refine Prod.ext ?_ ?_
    · dsimp only
      rw [e3]
      refine step _ (e2.trans ?_) h1
      have := pow_le_pow_right₀ hu (show 1 ≤ 3 by omega)
      rw [pow_one] at this
      exact mul_le_mul_of_nonneg_right this (by positivity)
    · funext a
      refine range_axpy h0 fused (P := (|c| + 1) * |y a|) ?_ ?_ (h2 a)
      · rw [abs_mul]
        exact mul_le_mul_of_nonneg_right (by linarith) (abs_nonneg _)
      · have := hw 1 (by omega) _ (show 0 ≤ (|c| + 1) * |y a| by positivity)
        rw [pow_one] at this
        exact this.trans (hQy a)
  · rw [if_neg hc] at h1 h2 ⊢
    rw [elt, if_neg hc]
    refine Prod.ext ?_ rfl
    have e1 : |r.rnd (0 - 1)| ≤ (1 + r.u) * 1 := abs_rnd_le h0 (by norm_num)
    have n1 : (rangeOps r fused Ω).negOne = some (r.rnd (0 - 1)) := limit_fits (e1.trans (by
      have := hw 1 (by omega) _ (show 0 ≤ |c| + 1 by positivity)
      rw [pow_one] at this
      exact (mul_le_mul_of_nonneg_left (by linarith) (by linarith)).trans (this.trans hQ)))
    have e2 : |r.rnd (0 - 1) * c| ≤ (1 + r.u) * |c| := by
      rw [abs_mul]
      rw [mul_one] at e1
      exact mul_le_mul_of_nonneg_right e1 hc0
    have e3 := abs_rnd_le h0 e2
    rw [← mul_assoc, ← sq] at e3
    have n2 : (rangeOps r fused Ω).mul (some (r.rnd (0 - 1))) (some c) = some (r.rnd (r.rnd (0 - 1) * c)) := limit_fits (e3.trans
      ((mul_le_mul_of_nonneg_left (by linarith) (hp0 2)).trans ((hw 2 (by omega) (|c| + 1) (by positivity)).trans hQ)))
    have e4 : |r.rnd (r.rnd (0 - 1) * c) - 1| ≤ (1 + r.u) ^ 2 * (|c| + 1) := by
      have h3 := abs_sub (r.rnd (r.rnd (0 - 1) * c)) 1
      rw [abs_one] at h3
      have h4 := one_le_pow₀ hu (n := 2)
      linarith
    have e5 := abs_rnd_le h0 e4
    rw [← mul_assoc, ← pow_succ'] at e5
    have n3 : (rangeOps r fused Ω).sub (some (r.rnd (r.rnd (0 - 1) * c))) (rangeOps r fused Ω).one = some (r.rnd (r.rnd (r.rnd (0 - 1) * c) - 1)) :=
      limit_fits (e5.trans ((hw 3 (by omega) _ (by positivity)).trans hQ))
    dsimp only
    rw [n1, n2, n3]
    exact step _ e5 h1

/-- A row. -/
theorem range_foldl (es : List (Vec f ℝ × ℝ)) {k : Nat} (hk : 5 ≤ k) {M : Mat f ℝ} {B : Vec f ℝ} {s t : Mat f ℝ × Vec f ℝ}
    (hn : NearSystem r.u k M B s t)
    (hQ : ∀ e ∈ es, (1 + r.u) ^ 5 * (|e.2| + 1) ≤ Ω) (hQy : ∀ e ∈ es, ∀ a, (1 + r.u) ^ 5 * ((|e.2| + 1) * |e.1 a|) ≤ Ω)
    (h1 : ∀ a b, (1 + r.u) ^ (k + es.length) * (M a b + (es.map fun e => (|e.2| + 1) * |e.1 a| * |e.1 b|).sum) ≤ Ω)
    (h2 : ∀ a, (1 + r.u) ^ (k + es.length) * (B a + (es.map fun e => gain e.2 * |e.1 a|).sum) ≤ Ω) (hA : (roundOps r fused).Accurate r.u) :
    (es.map fun e => (known e.1, some e.2)).foldl (rangeOps r fused Ω).accumulate (fun a => known (s.1 a), known s.2) =
      (fun a => known ((es.foldl (roundOps r fused).accumulate s).1 a), known (es.foldl (roundOps r fused).accumulate s).2) := by
  have hu : 1 ≤ 1 + r.u := by linarith [r.u_nonneg]
  induction es generalizing k M B s t with
  | nil => rfl
  | cons e es ih =>
    have hn' := near_accumulate hA hk hn e
    have g0 : ∀ c : ℝ, 0 ≤ gain c := fun c => by
      unfold gain
      split_ifs with h
      · exact h.le
      · exact le_rfl
    have hs1 : ∀ a b, 0 ≤ (es.map fun e => (|e.2| + 1) * |e.1 a| * |e.1 b|).sum := fun a b => List.sum_nonneg (by
      intro x hx
      obtain ⟨e, -, rfl⟩ := List.mem_map.mp hx
      positivity)
    have hs2 : ∀ a, 0 ≤ (es.map fun e => gain e.2 * |e.1 a|).sum := fun a => List.sum_nonneg (by
      intro x hx
      obtain ⟨e, -, rfl⟩ := List.mem_map.mp hx
      exact mul_nonneg (g0 _) (abs_nonneg _))
    simp only [List.map_cons, List.sum_cons, List.length_cons, ← add_assoc] at h1 h2
    rw [show ∀ k l : Nat, k + l + 1 = k + 1 + l by omega] at h1 h2
    have hM0 : ∀ a b, 0 ≤ M a b := fun a b => (hn.1 a b).nonneg
    have b1 : ∀ a b, (1 + r.u) ^ (k + 1) * (M a b + (|e.2| + 1) * |e.1 a| * |e.1 b|) ≤ Ω := fun a b =>
      (mul_le_mul (pow_le_pow_right₀ hu (by omega)) (by linarith [hs1 a b]) (by
        have := hM0 a b
        positivity) (pow_nonneg (by linarith) _)).trans (h1 a b)
    rw [List.map_cons, List.foldl_cons, List.foldl_cons, range_accumulate h0 fused s e (hQ e (by simp)) (hQy e (by simp)) (fun a b => ?_)
      (fun a b => ?_) (fun a => ?_)]
    · refine ih (by omega) hn' (fun e he => hQ e (by simp [he])) (fun e he => hQy e (by simp [he])) (fun a b => h1 a b) (fun a => h2 a)
    · refine le_trans ?_ (b1 a b)
      exact mul_le_mul (pow_le_pow_right₀ hu (by omega)) (by linarith [hM0 a b]) (by positivity) (pow_nonneg (by linarith) _)
    · exact (hn'.1 a b).abs_le.trans (b1 a b)
    · refine (hn'.2 a).abs_le.trans (le_trans ?_ (h2 a))
      have hB0 : 0 ≤ B a := (hn.2 a).nonneg
      have := mul_nonneg (g0 e.2) (abs_nonneg (e.1 a))
      exact mul_le_mul (pow_le_pow_right₀ hu (by omega)) (by linarith [hs2 a]) (by linarith) (pow_nonneg (by linarith) _)

/-- The regularised Gram matrix. -/
theorem range_regularised (G : Mat f ℝ) {reg : ℝ} (hreg : (1 + r.u) * |reg| ≤ Ω)
    (h1 : ∀ a b, |(roundOps r fused).regularised G reg a b| ≤ Ω) :
    (rangeOps r fused Ω).regularised (fun a => known (G a)) (some reg) = fun a => known ((roundOps r fused).regularised G reg a) := by
  funext a b
  unfold FloatOps.regularised
  have e : (rangeOps r fused Ω).mul (some reg) (if a = b then (rangeOps r fused Ω).one else (rangeOps r fused Ω).zero) =
      some ((roundOps r fused).mul reg (if a = b then (roundOps r fused).one else (roundOps r fused).zero)) := by
    split_ifs with h
    · refine limit_fits ((abs_rnd_le h0 ?_).trans hreg)
      rw [mul_one]
    · refine limit_fits ((abs_rnd_le h0 ?_).trans hreg)
      rw [mul_zero, abs_zero]
      exact abs_nonneg _
  rw [e]
  exact limit_fits (h1 a b)

end

end Implicit
