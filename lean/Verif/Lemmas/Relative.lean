import Verif.Lemmas.RoundKnn
import Verif.Lemmas.RoundALS
/-!
# Computed numbers that are within a factor of the exact ones
-/

namespace Implicit

/-- `c` is the non-negative number `s` up to the factor `G`. -/
structure UpTo (G c s : ℝ) : Prop where
  one : 1 ≤ G
  nonneg : 0 ≤ s
  lower : s ≤ G * c
  upper : c ≤ G * s

namespace UpTo

variable {G H c d s t : ℝ}

theorem self (h : 0 ≤ s) : UpTo 1 s s := ⟨le_rfl, h, by linarith, by linarith⟩

theorem nonneg' (h : UpTo G c s) : 0 ≤ c := by
  by_contra hc
  have h1 : G * c < 0 := mul_neg_of_pos_of_neg (by linarith [h.one]) (by linarith)
  linarith [h.lower, h.nonneg]

theorem pos (h : UpTo G c s) (hs : 0 < s) : 0 < c := by
  refine lt_of_le_of_ne h.nonneg' fun hc => ?_
  have := h.lower
  rw [← hc, mul_zero] at this
  linarith

theorem zero (h : UpTo G c s) (hs : s = 0) : c = 0 := by
  have h1 := h.upper
  rw [hs, mul_zero] at h1
  exact le_antisymm h1 h.nonneg'

theorem mono (h : UpTo G c s) (hG : G ≤ H) : UpTo H c s :=
  ⟨h.one.trans hG, h.nonneg, h.lower.trans (mul_le_mul_of_nonneg_right hG h.nonneg'), h.upper.trans (mul_le_mul_of_nonneg_right hG h.nonneg)⟩

theorem abs_le (h : UpTo G c s) : |c - s| ≤ (G - 1) * s := by
  have h1 := h.one
  have h2 := h.nonneg
  rw [abs_sub_le_iff]
  refine ⟨by linarith [h.upper], ?_⟩
  by_cases hc : s ≤ c
  · have := mul_nonneg (by linarith : 0 ≤ G - 1) h2
    linarith
  · have h3 := mul_le_mul_of_nonneg_left (not_le.mp hc).le (by linarith : 0 ≤ G - 1)
    linarith [h.lower]

theorem mul (h : UpTo G c s) (h' : UpTo H d t) : UpTo (G * H) (c * d) (s * t) := by
  refine ⟨one_le_mul_of_one_le_of_one_le h.one h'.one, mul_nonneg h.nonneg h'.nonneg, ?_, ?_⟩
  · calc s * t ≤ (G * c) * (H * d) := mul_le_mul h.lower h'.lower h'.nonneg (mul_nonneg (by linarith [h.one]) h.nonneg')
      _ = _ := by ring
  · calc c * d ≤ (G * s) * (H * t) := mul_le_mul h.upper h'.upper h'.nonneg' (mul_nonneg (by linarith [h.one]) h.nonneg)
      _ = _ := by ring

theorem add (h : UpTo G c s) (h' : UpTo G d t) : UpTo G (c + d) (s + t) :=
  ⟨h.one, add_nonneg h.nonneg h'.nonneg, by linarith [h.lower, h'.lower], by linarith [h.upper, h'.upper]⟩

theorem inv (h : UpTo G c s) : UpTo G c⁻¹ s⁻¹ := by
  have hG : 0 < G := by linarith [h.one]
  rcases h.nonneg.lt_or_eq with hs | hs
  · have hc := h.pos hs
    refine ⟨h.one, inv_nonneg.mpr hs.le, ?_, ?_⟩
    · rw [inv_le_iff_one_le_mul₀ hs, mul_assoc, inv_mul_eq_div, ← mul_div_assoc, le_div_iff₀ hc, one_mul]
      exact h.upper
    · rw [inv_le_iff_one_le_mul₀ hc, mul_assoc, inv_mul_eq_div, ← mul_div_assoc, le_div_iff₀ hs, one_mul]
      exact h.lower
  · rw [h.zero hs.symm, ← hs]
    exact ⟨h.one, by simp, by simp, by simp⟩

theorem div (h : UpTo G c s) (h' : UpTo H d t) : UpTo (G * H) (c / d) (s / t) := by
  rw [div_eq_mul_inv, div_eq_mul_inv]
  exact h.mul h'.inv

theorem sqrt (h : UpTo G c s) : UpTo G (Real.sqrt c) (Real.sqrt s) := by
  have hG : 0 ≤ G := by linarith [h.one]
  have hG2 : G ≤ G ^ 2 := by nlinarith [h.one]
  refine ⟨h.one, Real.sqrt_nonneg _, ?_, ?_⟩
  · rw [Real.sqrt_le_left (mul_nonneg hG (Real.sqrt_nonneg _)), mul_pow, Real.sq_sqrt h.nonneg']
    exact h.lower.trans (mul_le_mul_of_nonneg_right hG2 h.nonneg')
  · rw [Real.sqrt_le_left (mul_nonneg hG (Real.sqrt_nonneg _)), mul_pow, Real.sq_sqrt h.nonneg]
    exact h.upper.trans (mul_le_mul_of_nonneg_right hG2 h.nonneg)

/-- A root halves the error. -/
theorem sqrt_sq (hG : 1 ≤ G) (h : UpTo (G ^ 2) c s) : UpTo G (Real.sqrt c) (Real.sqrt s) := by
  have hG0 : 0 ≤ G := by linarith
  refine ⟨hG, Real.sqrt_nonneg _, ?_, ?_⟩
  · rw [Real.sqrt_le_left (mul_nonneg hG0 (Real.sqrt_nonneg _)), mul_pow, Real.sq_sqrt h.nonneg']
    exact h.lower
  · rw [Real.sqrt_le_left (mul_nonneg hG0 (Real.sqrt_nonneg _)), mul_pow, Real.sq_sqrt h.nonneg]
    exact h.upper

/-- One rounding. -/
theorem round (h : UpTo G c s) (r : Rounding ℝ) (h0 : r.η = 0) (hu : r.u < 1) : UpTo (G * (1 / (1 - r.u))) (r.rnd c) s := by
  have hc := h.nonneg'
  have herr := r.err c
  rw [h0, add_zero, abs_of_nonneg hc] at herr
  have h1 := _root_.abs_le.mp herr
  have hpos : 0 < 1 - r.u := by linarith
  have hG : 0 ≤ G := by linarith [h.one]
  have hq : 1 + r.u ≤ 1 / (1 - r.u) := by
    rw [le_div_iff₀ hpos]
    nlinarith [sq_nonneg r.u]
  have hq1 : 1 ≤ 1 / (1 - r.u) := by linarith [r.u_nonneg]
  refine ⟨one_le_mul_of_one_le_of_one_le h.one hq1, h.nonneg, ?_, ?_⟩
  · have h2 : c ≤ 1 / (1 - r.u) * r.rnd c := by
      rw [one_div, inv_mul_eq_div, le_div_iff₀ hpos]
      linarith
    calc s ≤ G * c := h.lower
      _ ≤ G * (1 / (1 - r.u) * r.rnd c) := mul_le_mul_of_nonneg_left h2 hG
      _ = _ := by ring
  · have h2 : r.rnd c ≤ 1 / (1 - r.u) * c := by
      have := mul_le_mul_of_nonneg_right hq hc
      linarith
    calc r.rnd c ≤ 1 / (1 - r.u) * c := h2
      _ ≤ 1 / (1 - r.u) * (G * s) := mul_le_mul_of_nonneg_left h.upper (by linarith)
      _ = _ := by ring

/-- A relative error below one. -/
theorem of_error {δ : ℝ} (hδ : 0 ≤ δ) (h1 : δ < 1) (hs : 0 ≤ s) (h : |c - s| ≤ δ * s) : UpTo (1 / (1 - δ)) c s := by
  have h2 := _root_.abs_le.mp h
  have hpos : 0 < 1 - δ := by linarith
  have hq : 1 + δ ≤ 1 / (1 - δ) := by
    rw [le_div_iff₀ hpos]
    nlinarith [sq_nonneg δ]
  refine ⟨by linarith, hs, ?_, ?_⟩
  · rw [one_div, inv_mul_eq_div, le_div_iff₀ hpos]
    linarith
  · have := mul_le_mul_of_nonneg_right hq hs
    linarith

theorem sum {α : Type} (l : List α) {g h : α → ℝ} (hG : 1 ≤ G) (hl : ∀ e ∈ l, UpTo G (g e) (h e)) :
    UpTo G (l.map g).sum (l.map h).sum := by
  induction l with
  | nil => exact ⟨hG, by simp, by simp, by simp⟩
  | cons e l ih =>
    rw [List.map_cons, List.map_cons, List.sum_cons, List.sum_cons]
    exact (hl e (by simp)).add (ih fun e he => hl e (List.mem_cons_of_mem _ he))

theorem finset_sum {n : Nat} {g h : Fin n → ℝ} (hG : 1 ≤ G) (hl : ∀ i, UpTo G (g i) (h i)) : UpTo G (∑ i, g i) (∑ i, h i) :=
  ⟨hG, Finset.sum_nonneg fun i _ => (hl i).nonneg, by
    rw [Finset.mul_sum]; exact Finset.sum_le_sum fun i _ => (hl i).lower, by
    rw [Finset.mul_sum]; exact Finset.sum_le_sum fun i _ => (hl i).upper⟩

end UpTo

/-- The factor of one rounding. -/
noncomputable def Rounding.factor (r : Rounding ℝ) : ℝ := 1 / (1 - r.u)

theorem one_le_factor (r : Rounding ℝ) (hu : r.u < 1) : 1 ≤ r.factor := by
  unfold Rounding.factor
  rw [le_div_iff₀ (by linarith)]
  linarith [r.u_nonneg]

/-- A running sum. -/
theorem upTo_foldl (r : Rounding ℝ) (h0 : r.η = 0) (hu : r.u < 1) (l : List ℝ) (hl : ∀ x ∈ l, 0 ≤ x) {k : Nat} {c s : ℝ}
    (h : UpTo (r.factor ^ k) c s) : UpTo (r.factor ^ (k + l.length)) (l.foldl (fun s v => r.rnd (s + v)) c) (s + l.sum) := by
  induction l generalizing k c s with
  | nil => simpa using h
  | cons x l ih =>
    have hx : UpTo (r.factor ^ k) x x := (UpTo.self (hl x (by simp))).mono (one_le_pow₀ (one_le_factor r hu))
    have h1 := (h.add hx).round r h0 hu
    rw [show r.factor ^ k * (1 / (1 - r.u)) = r.factor ^ (k + 1) by rw [pow_succ]; rfl] at h1
    have := ih (fun y hy => hl y (List.mem_cons_of_mem _ hy)) h1
    rw [add_assoc s] at this
    rw [List.foldl_cons, List.sum_cons, List.length_cons, show k + (l.length + 1) = k + 1 + l.length by omega]
    exact this

theorem leaves_pos {f : Nat} (t : SumTree f) : 1 ≤ t.leaves.length := by
  induction t with
  | leaf i => simp [SumTree.leaves]
  | add l m ihl ihm => simp only [SumTree.leaves, List.length_append]; omega
  | fma i t ih => simp [SumTree.leaves]

/-- A sum in any order. -/
theorem upTo_tree {f : Nat} (r : Rounding ℝ) (h0 : r.η = 0) (hu : r.u < 1) {G : ℝ} (hG : 1 ≤ G) {x y z : Vec f ℝ}
    (h : ∀ i, UpTo G (x i * y i) (z i)) (t : SumTree f) :
    UpTo (G * r.factor ^ t.leaves.length) (t.eval r x y) (t.leaves.map z).sum := by
  have hf := one_le_factor r hu
  have hpos : ∀ {k l : Nat}, k ≤ l → G * r.factor ^ k ≤ G * r.factor ^ l := fun hkl =>
    mul_le_mul_of_nonneg_left (pow_le_pow_right₀ hf hkl) (by linarith)
  have hstep : ∀ {k l : Nat} {c s : ℝ}, k + 1 ≤ l → UpTo (G * r.factor ^ k) c s → UpTo (G * r.factor ^ l) (r.rnd c) s := by
    intro k l c s hkl hc
    have h1 := hc.round r h0 hu
    rw [mul_assoc, show r.factor ^ k * (1 / (1 - r.u)) = r.factor ^ (k + 1) by rw [pow_succ]; rfl] at h1
    exact h1.mono (hpos hkl)
  induction t with
  | leaf i =>
    have h1 : UpTo (G * r.factor ^ 0) (x i * y i) (z i) := by simpa using h i
    simpa [SumTree.leaves, SumTree.eval] using hstep (k := 0) (l := 1) le_rfl h1
  | add l m ihl ihm =>
    have h1 := leaves_pos l
    have h2 := leaves_pos m
    simp only [SumTree.leaves, List.map_append, List.sum_append, List.length_append, SumTree.eval]
    refine hstep (k := max l.leaves.length m.leaves.length) (by omega) ?_
    exact (ihl.mono (hpos (le_max_left _ _))).add (ihm.mono (hpos (le_max_right _ _)))
  | fma i t ih =>
    simp only [SumTree.leaves, List.map_cons, List.sum_cons, List.length_cons, SumTree.eval]
    refine hstep (k := t.leaves.length) (by omega) ?_
    exact ((h i).mono (le_mul_of_one_le_right (by linarith) (one_le_pow₀ hf))).add ih

end Implicit
