import Verif.Model.RoundExplain
import Verif.Spec.ExplainError
import Verif.Props.C19
import Verif.Props.C90Python
/-!
# C98 — in floating point an explanation is right up to a stated error
-/

set_option linter.unusedSectionVars false

namespace Implicit

open Spec (ValidRow)

variable {f : Nat}

theorem accurate_mono {A : FloatOps ℝ} {u v : ℝ} (hA : A.Accurate v) (h : v ≤ u) : A.Accurate u where
  nonneg := hA.nonneg.trans h
  zero := hA.zero
  one := hA.one
  add a b := (hA.add a b).trans (mul_le_mul_of_nonneg_right h (abs_nonneg _))
  sub a b := (hA.sub a b).trans (mul_le_mul_of_nonneg_right h (abs_nonneg _))
  mul a b := (hA.mul a b).trans (mul_le_mul_of_nonneg_right h (abs_nonneg _))
  lt := hA.lt
  axpy t y s := by
    obtain ⟨p, h1, h2⟩ := hA.axpy t y s
    exact ⟨p, h1.trans (mul_le_mul_of_nonneg_right h (abs_nonneg _)), h2.trans (mul_le_mul_of_nonneg_right h (abs_nonneg _))⟩

/-! ## The matrix -/

section
variable {A D : FloatOps ℝ} {u v : ℝ}

theorem near_explainFactor (hA : A.Accurate u) (c : ℝ) : Near ((1 + u) ^ 3) (|c| + 1) (explainFactor A c) (conf c - 1) := by
  unfold explainFactor
  by_cases hp : 0 < c
  · rw [if_pos ((hA.lt _ _).mpr (by rw [hA.zero]; exact hp))]
    exact near_conf_pos hA c hp
  · rw [if_neg (fun hc => hp (by have := (hA.lt _ _).mp hc; rwa [hA.zero] at this))]
    have h1 : Near ((1 + u) ^ 1) 1 A.negOne (-1) := by
      have := near_sub hA (near_self 0 u) (near_self 1 u) (m := 1) (by omega) (by omega)
      unfold FloatOps.negOne
      rw [hA.zero, hA.one]
      simpa using this
    have h2 : Near ((1 + u) ^ 2) (|c| * 1) (A.mul c A.negOne) (c * -1) := near_mul hA (near_self c u) h1 (by omega)
    have h3 := near_sub hA h2 (near_self 1 u) (m := 3) (by omega) (by omega)
    rw [hA.one]
    unfold conf
    rw [if_neg hp]
    simpa using h3

theorem near_explain_foldl (hA : A.Accurate u) (hD : D.Accurate u) (es : List (Vec f ℝ × ℝ)) {k : Nat} (hk : 5 ≤ k) {M s : Mat f ℝ}
    {t : Mat f ℝ × Vec f ℝ} (h : ∀ a b, Near ((1 + u) ^ k) (M a b) (s a b) (t.1 a b)) (a b : Fin f) :
    Near ((1 + u) ^ (k + es.length)) (M a b + (es.map fun e => (|e.2| + 1) * |e.1 a| * |e.1 b|).sum)
      (es.foldl (fun s e a b => D.add (s a b) (A.mul (explainFactor A e.2) (A.mul (e.1 a) (e.1 b)))) s a b)
      ((es.foldl accumulate t).1 a b) := by
  induction es generalizing k M s t with
  | nil => simpa using h a b
  | cons e es ih =>
    have hstep : ∀ a b, Near ((1 + u) ^ (k + 1)) (M a b + (|e.2| + 1) * |e.1 a| * |e.1 b|)
        (D.add (s a b) (A.mul (explainFactor A e.2) (A.mul (e.1 a) (e.1 b)))) ((accumulate t e).1 a b) := by
      intro a b
      rw [accumulate_eq]
      have h1 := near_mul hA (near_self (e.1 a) u) (near_self (e.1 b) u) (m := 1) (by omega)
      have := near_add hD (h a b) (near_mul hA (near_explainFactor hA e.2) h1 (m := 5) (by omega)) (m := k + 1) (by omega) (by omega)
      rw [← mul_assoc, ← mul_assoc] at this
      exact this
    have := ih (by omega) hstep
    simp only [List.map_cons, List.sum_cons, List.foldl_cons, List.length_cons, ← add_assoc] at this ⊢
    rw [show k + es.length + 1 = k + 1 + es.length by omega]
    exact this

/-- The matrix as computed, and its transpose. -/
theorem near_explainMatrix (hA : A.Accurate u) (hD : D.Accurate u) (r : Rounding ℝ) (hr : r.u = u) (h0 : r.η = 0) (Y : List (Vec f ℝ))
    (order : Fin f → Fin f → SumTree Y.length) (ho : ∀ a b, (order a b).Complete) (reg : ℝ) (es : List (Vec f ℝ × ℝ)) (a b : Fin f) :
    Near ((1 + u) ^ (Y.length + es.length + 5)) (rowSize Y reg es a b)
      (explainMatrix A D (roundGram r Y order) reg es b a) ((linearEquation (gram Y) reg es).1 a b) := by
  have h := near_explain_foldl hA hD es (by omega) (near_regularised hD r hr h0 Y order ho reg).1 b a
  rw [show Y.length + 5 + es.length = Y.length + es.length + 5 by omega] at h
  have hs := linearEquation_symm (gram_symm Y) reg es
  rw [rowSize_symm]
  have e : (linearEquation (gram Y) reg es).1 a b = (linearEquation (gram Y) reg es).1 b a := hs a b
  rw [e]
  exact h

/-! ## The contributions -/

/-- What the loop computes, in the order of the stored entries. -/
noncomputable def computedContributions (D : FloatOps ℝ) (d : Rounding ℝ) (sums : Nat → SumTree f) (w : Vec f ℝ) (Y : List (Vec f ℝ))
    (row : List (Nat × ℝ)) : List (ℝ × Nat) :=
  (row.filter fun e => 0 ≤ e.2).map fun e => (D.mul ((sums e.1).eval d w (Y[e.1]?.getD 0)) e.2, e.1)

theorem roundExplainScores_eq (hD : D.Accurate v) (d : Rounding ℝ) (sums : Nat → SumTree f) (w : Vec f ℝ) (Y : List (Vec f ℝ))
    (row : List (Nat × ℝ)) (h : ∀ e ∈ row, e.1 < Y.length) :
    roundExplainScores D d sums w Y row = .ok (computedContributions D d sums w Y row) := by
  induction row with
  | nil => rfl
  | cons e row ih =>
    obtain ⟨i, c⟩ := e
    have hi : i < Y.length := h (i, c) (by simp)
    have ih := ih fun e he => h e (List.mem_cons_of_mem _ he)
    unfold roundExplainScores
    unfold computedContributions at ih ⊢
    by_cases hc : c < 0
    · rw [if_pos ((hD.lt _ _).mpr (by rwa [hD.zero])), ih, List.filter_cons_of_neg (by simpa using hc)]
    · rw [if_neg (fun h => hc (by have := (hD.lt _ _).mp h; rwa [hD.zero] at this)), List.getElem?_eq_getElem hi, ih,
        List.filter_cons_of_pos (by simpa using hc)]
      simp only [List.map_cons, List.getElem?_eq_getElem hi]
      rfl

theorem dot_abs_le (x y : Vec f ℝ) : ∑ j, |x j * y j| ≤ Spec.length x * Spec.length y := by
  have := (le_abs_self _).trans (abs_dot_le_length (fun j => |x j|) fun j => |y j|)
  rw [length_abs, length_abs] at this
  refine le_trans (le_of_eq ?_) this
  exact Finset.sum_congr rfl fun j _ => abs_mul _ _

theorem near_tree (d : Rounding ℝ) (h0 : d.η = 0) {t : SumTree f} (ht : t.Complete) (x y : Vec f ℝ) :
    Near ((1 + d.u) ^ f) (Spec.length x * Spec.length y) (t.eval d x y) (dot x y) := by
  have h := t.eval_error d x y
  rw [t.exact_complete ht, t.mass_complete ht, t.length_complete ht, h0, mul_zero, add_zero] at h
  refine ⟨one_le_growth d.u_nonneg _, h.trans ?_, abs_dot_le_length x y⟩
  exact mul_le_mul_of_nonneg_left (dot_abs_le x y) (by linarith [one_le_growth d.u_nonneg f])

theorem near_contribution (hD : D.Accurate v) (d : Rounding ℝ) (hd : d.u = v) (h0 : d.η = 0) {t : SumTree f} (ht : t.Complete)
    (w y : Vec f ℝ) {c : ℝ} (hc : 0 ≤ c) :
    Near ((1 + v) ^ (f + 1)) (Spec.length w * (c * Spec.length y)) (D.mul (t.eval d w y) c) (dot w y * c) := by
  have h := near_tree d h0 ht w y
  rw [hd] at h
  have h1 := near_mul hD h (near_self c v) (m := f + 1) (by omega)
  rw [abs_of_nonneg hc] at h1
  rwa [show Spec.length w * (c * Spec.length y) = Spec.length w * Spec.length y * c by ring]

/-- The running total. -/
theorem near_total (hD : D.Accurate v) {α : Type} (l : List α) (F g h : α → ℝ) {k : Nat}
    (hl : ∀ e ∈ l, Near ((1 + v) ^ k) (F e) (g e) (h e)) {S s t : ℝ} {n : Nat} (hn : k ≤ n) (hs : Near ((1 + v) ^ n) S s t) :
    Near ((1 + v) ^ (n + l.length)) (S + (l.map F).sum) ((l.map g).foldl D.add s) (t + (l.map h).sum) := by
  induction l generalizing S s t n with
  | nil => simpa using hs
  | cons e l ih =>
    have h1 := near_add hD hs (hl e (by simp)) (m := n + 1) (by omega) (by omega)
    have := ih (fun e he => hl e (List.mem_cons_of_mem _ he)) (by omega) h1
    simp only [List.map_cons, List.sum_cons, List.foldl_cons, List.length_cons, ← add_assoc] at this ⊢
    rw [show n + l.length + 1 = n + 1 + l.length by omega]
    exact this

theorem near_explainTotal (hD : D.Accurate v) (d : Rounding ℝ) (hd : d.u = v) (h0 : d.η = 0) {sums : Nat → SumTree f}
    (hs : ∀ i, (sums i).Complete) (w : Vec f ℝ) (Y : List (Vec f ℝ)) (row : List (Nat × ℝ)) :
    |((computedContributions D d sums w Y row).map Prod.fst).foldl D.add D.zero - ((Spec.contributions Y row w).map Prod.fst).sum| ≤
      ((1 + v) ^ (f + 1 + row.length) - 1) * (Spec.length w * Spec.targetSize Y row) := by
  have hz : Near ((1 + v) ^ (f + 1)) 0 D.zero 0 := by
    rw [hD.zero]
    exact ⟨one_le_growth hD.nonneg _, by simp, by simp⟩
  have h := near_total hD (row.filter fun e => 0 ≤ e.2) (fun e => Spec.length w * (e.2 * Spec.length (Y[e.1]?.getD 0)))
    (fun e => D.mul ((sums e.1).eval d w (Y[e.1]?.getD 0)) e.2) (fun e => dot w (Y[e.1]?.getD 0) * e.2)
    (fun e he => near_contribution hD d hd h0 (hs e.1) w _ (by simpa using (List.mem_filter.mp he).2)) le_rfl hz
  have hsize : ((row.filter fun e => 0 ≤ e.2).map fun e => Spec.length w * (e.2 * Spec.length (Y[e.1]?.getD 0))).sum =
      Spec.length w * Spec.targetSize Y row := by
    unfold Spec.targetSize
    clear h
    induction row with
    | nil => simp
    | cons e row ih =>
      rw [List.map_cons, List.sum_cons, mul_add, ← ih]
      by_cases he : 0 ≤ e.2
      · rw [List.filter_cons_of_pos (by simpa using he), List.map_cons, List.sum_cons]
        congr 2
        rcases he.lt_or_eq with h | h
        · rw [if_pos h]
        · rw [if_neg (by rw [← h]; exact lt_irrefl _), ← h]
      · rw [List.filter_cons_of_neg (by simpa using he), if_neg (fun h => he h.le)]
        simp
  rw [zero_add, zero_add, hsize] at h
  have hlen : (row.filter fun e => 0 ≤ e.2).length ≤ row.length := List.length_filter_le _ _
  have h2 := (h.mono (growth_mono hD.nonneg (show f + 1 + (row.filter fun e => 0 ≤ e.2).length ≤ f + 1 + row.length by omega))).2.1
  unfold computedContributions Spec.contributions
  rw [List.map_map, List.map_map]
  exact h2

end

end Implicit
