import Mathlib.Tactic.ByContra
import Mathlib.Algebra.Order.Chebyshev
import Mathlib.Analysis.InnerProductSpace.PiL2
import Verif.Lemmas.Rounding
import Verif.Spec.Approx
import Verif.Spec.Cosine
import Verif.Props.C01Heap
/-!
# C62 — in floating point, scores and rankings are right up to a stated error
-/

set_option linter.unusedSectionVars false

namespace Implicit

section
variable {R : Type} [Field R] [LinearOrder R] [IsStrictOrderedRing R] {f n : Nat}

/-- How far a score may be off: the error of a sum of `f` products. -/
def Spec.scoreError (u η : R) (x y : Vec f R) : R :=
  ((1 + u) ^ f - 1) * ∑ i, |x i * y i| + (2 * f - 1) * (1 + u) ^ f * η

/-- **C62** (scores).  Whatever the order of summation, with or without fused multiply-add, a score is off by at most
`((1+u)^f - 1) * Σ|xᵢyᵢ|`, plus the share of subnormal products. -/
theorem C62_score (r : Rounding R) (t : SumTree f) (ht : t.Complete) (x y : Vec f R) :
    |t.eval r x y - dot x y| ≤ Spec.scoreError r.u r.η x y := by
  have := t.eval_error r x y
  rw [t.exact_complete ht, t.mass_complete ht, t.length_complete ht] at this
  exact this

/-- Selecting by approximate scores. -/
theorem roundSelect_approx {computed score ε : Fin n → R} (herr : ∀ j, |computed j - score j| ≤ ε j) (lowest : R)
    (filter : List (Fin n)) (k : Nat) (hk : 1 ≤ k) (hlow : ∀ j, j ∉ filter → lowest < computed j)
    (hmany : k ≤ ((List.finRange n).filter fun j => j ∉ filter).length) :
    ∃ out, roundSelect lowest filter k computed = .ok out ∧ Spec.ApproxTop k (fun j => j ∉ filter) score ε out ∧
      ∀ p ∈ out, ∃ i : Fin n, p.2 = i ∧ p.1 = computed i := by
  obtain ⟨-, out, h1, h2⟩ := C01_libstdcxx k hk ((List.finRange n).map fun j => if j ∈ filter then lowest else computed j)
  have hget : ∀ (i : Nat) (s : R), ((List.finRange n).map fun j => if j ∈ filter then lowest else computed j)[i]? = some s →
      ∃ j : Fin n, i = j.val ∧ s = if j ∈ filter then lowest else computed j := by
    intro i s h
    rw [List.getElem?_map] at h
    cases hg : (List.finRange n)[i]? with
    | none => rw [hg] at h; cases h
    | some j =>
      rw [hg] at h
      obtain ⟨hi, he⟩ := List.getElem?_eq_some_iff.mp hg
      rw [List.getElem_finRange] at he
      refine ⟨j, ?_, (Option.some.inj h).symm⟩
      rw [← he]
      rfl
  have hput : ∀ j : Fin n, ((List.finRange n).map fun j => if j ∈ filter then lowest else computed j)[(j : Nat)]? =
      some (if j ∈ filter then lowest else computed j) := by
    intro j
    rw [List.getElem?_map, List.getElem?_eq_getElem (by simp), List.getElem_finRange]
    rfl
  have hlen : out.length = k := by
    have e := h2.length
    rw [List.length_map, List.length_finRange] at e
    have : ((List.finRange n).filter fun j => decide (j ∉ filter)).length ≤ n := by
      have := List.length_filter_le (fun j => decide (j ∉ filter)) (List.finRange n)
      rwa [List.length_finRange] at this
    omega
  -- no filtered item is returned
  have hfree : ∀ p ∈ out, ∀ j : Fin n, p.2 = j → j ∉ filter := by
    intro p hp j hj hmem
    have hs : p.1 = lowest := by
      have := h2.faithful p hp
      rw [hj, hput j, if_pos hmem] at this
      exact (Option.some.inj this).symm
    have hall : ∀ i : Fin n, i ∉ filter → (i : Nat) ∈ out.map Prod.snd := by
      intro i hi
      by_contra hno
      have := h2.best p hp i _ (hput i) hno
      rw [if_neg hi, hs] at this
      exact absurd (hlow i hi) (not_lt.mpr this)
    have hsub : ((List.finRange n).filter fun j => decide (j ∉ filter)).map (fun i : Fin n => (i : Nat)) ⊆
        (out.map Prod.snd).erase j := by
      intro x hx
      rw [List.mem_map] at hx
      obtain ⟨i, hi, rfl⟩ := hx
      rw [List.mem_filter] at hi
      have hi' : i ∉ filter := by simpa using hi.2
      rw [List.Nodup.mem_erase_iff h2.distinct]
      refine ⟨fun he => ?_, hall i hi'⟩
      have : i = j := Fin.ext he
      rw [this] at hi'
      exact hi' hmem
    have hnd : (((List.finRange n).filter fun j => decide (j ∉ filter)).map (fun i : Fin n => (i : Nat))).Nodup :=
      ((List.nodup_finRange n).filter _).map Fin.val_injective
    have hle := (List.subperm_of_subset hnd hsub).length_le
    have hj' : (j : Nat) ∈ out.map Prod.snd := List.mem_map.mpr ⟨p, hp, hj⟩
    rw [List.length_map, List.length_erase_of_mem hj', List.length_map, hlen] at hle
    omega
  have hcomp : ∀ p ∈ out, ∃ i : Fin n, p.2 = i ∧ p.1 = computed i := by
    intro p hp
    obtain ⟨i, hi, hs⟩ := hget _ _ (h2.faithful p hp)
    refine ⟨i, hi, ?_⟩
    rw [hs, if_neg (hfree p hp i hi)]
  have key : ∀ i j : Fin n, computed j ≤ computed i → score j ≤ score i + (ε i + ε j) := by
    intro i j h
    have hi := abs_le.mp (herr i)
    have hj := abs_le.mp (herr j)
    linarith [hi.2, hj.1]
  refine ⟨out, h1, ⟨hlen, h2.distinct, ?_, ?_, ?_⟩, hcomp⟩
  · intro p hp
    obtain ⟨i, hi, hs⟩ := hcomp p hp
    exact ⟨i, hi, hfree p hp i hi, by rw [hs]; exact herr i⟩
  · refine (List.pairwise_iff_forall_sublist.mpr fun {a b} hab i j hi hj => ?_)
    have ha : a ∈ out := hab.subset List.mem_cons_self
    have hb : b ∈ out := hab.subset (List.mem_cons_of_mem _ List.mem_cons_self)
    have hbef : Spec.Before a b := (List.pairwise_iff_forall_sublist.mp h2.sorted) hab
    obtain ⟨i', hi', hsa⟩ := hcomp a ha
    obtain ⟨j', hj', hsb⟩ := hcomp b hb
    have e1 : i' = i := Fin.ext (by omega)
    have e2 : j' = j := Fin.ext (by omega)
    subst e1 e2
    apply key
    rw [← hsa, ← hsb]
    rcases hbef with h | h
    · exact h.le
    · exact h.1.ge
  · intro j hj hno p hp i hi
    obtain ⟨i', hi', hs⟩ := hcomp p hp
    have e1 : i' = i := Fin.ext (by omega)
    subst e1
    apply key
    have := h2.best p hp j _ (hput j) hno
    rw [if_neg hj, hs] at this
    exact this

/-- **C62** (`recommend`).  For every rounding, every order of summation and every filter that leaves `k` items, the answer has
`k` different unfiltered items, scores within the error bound, and no item before or instead of another whose true score is
better by more than the two bounds. -/
theorem C62_recommend (r : Rounding R) (order : Fin n → SumTree f) (ho : ∀ j, (order j).Complete) (lowest : R)
    (filter : List (Fin n)) (k : Nat) (hk : 1 ≤ k) (q : Vec f R) (items : Fin n → Vec f R)
    (hlow : ∀ j, j ∉ filter → lowest < (order j).eval r q (items j))
    (hmany : k ≤ ((List.finRange n).filter fun j => j ∉ filter).length) :
    ∃ out, roundRecommend r order lowest filter k q items = .ok out ∧
      Spec.ApproxTop k (fun j => j ∉ filter) (fun j => dot q (items j)) (fun j => Spec.scoreError r.u r.η q (items j)) out := by
  obtain ⟨out, h1, h2, -⟩ := roundSelect_approx (computed := roundScores r order q items)
    (fun j => C62_score r (order j) (ho j) q (items j)) lowest filter k hk hlow hmany
  exact ⟨out, h1, h2⟩

/-- **C62** (separated scores).  If the true scores of the unfiltered items differ by more than the errors, the ids returned are
those of exact arithmetic, in the same order. -/
theorem C62_separated (r : Rounding R) (order : Fin n → SumTree f) (ho : ∀ j, (order j).Complete) (lowest : R)
    (filter : List (Fin n)) (k : Nat) (q : Vec f R) (items : Fin n → Vec f R)
    (hlow : ∀ j, j ∉ filter → lowest < (order j).eval r q (items j)) (hlow' : ∀ j, j ∉ filter → lowest < dot q (items j))
    (hsep : ∀ i j, i ∉ filter → j ∉ filter → i ≠ j → Spec.scoreError r.u r.η q (items i) + Spec.scoreError r.u r.η q (items j) <
      |dot q (items i) - dot q (items j)|) :
    (roundRecommend r order lowest filter k q items).map (List.map Prod.snd) =
      (roundSelect lowest filter k (fun j => dot q (items j))).map (List.map Prod.snd) := by
  have e := fun j => C62_score r (order j) (ho j) q (items j)
  obtain ⟨c, hc⟩ : ∃ c : Fin n → R, c = fun j => if j ∈ filter then lowest else roundScores r order q items j := ⟨_, rfl⟩
  obtain ⟨d, hd⟩ : ∃ d : Fin n → R, d = fun j => if j ∈ filter then lowest else dot q (items j) := ⟨_, rfl⟩
  have hcd : ∀ i j, decide (c i < c j) = decide (d i < d j) := by
    intro i j
    have key : c i < c j ↔ d i < d j := by
      rw [hc, hd]
      by_cases hi : i ∈ filter <;> by_cases hj : j ∈ filter
      · simp [hi, hj]
      · simp only [if_pos hi, if_neg hj]
        exact ⟨fun _ => hlow' j hj, fun _ => hlow j hj⟩
      · simp only [if_neg hi, if_pos hj]
        exact ⟨fun h => absurd h (not_lt.mpr (hlow i hi).le), fun h => absurd h (not_lt.mpr (hlow' i hi).le)⟩
      · simp only [if_neg hi, if_neg hj]
        by_cases hij : i = j
        · subst hij
          simp
        · have s := hsep i j hi hj hij
          have ei := abs_le.mp (e i)
          have ej := abs_le.mp (e j)
          have n1 : roundScores r order q items i = (order i).eval r q (items i) := rfl
          have n2 : roundScores r order q items j = (order j).eval r q (items j) := rfl
          rw [n1, n2]
          rcases lt_abs.mp s with s | s
          · constructor
            · intro h; linarith [ei.1, ej.2]
            · intro h
              have : 0 ≤ Spec.scoreError r.u r.η q (items i) := (abs_nonneg _).trans (e i)
              have : 0 ≤ Spec.scoreError r.u r.η q (items j) := (abs_nonneg _).trans (e j)
              linarith
          · constructor
            · intro h
              have : 0 ≤ Spec.scoreError r.u r.η q (items i) := (abs_nonneg _).trans (e i)
              have : 0 ≤ Spec.scoreError r.u r.η q (items j) := (abs_nonneg _).trans (e j)
              linarith
            · intro h; linarith [ei.2, ej.1]
    exact decide_eq_decide.mpr key
  have m1 := rawSelect_map (lt := fun i j => decide (c i < c j)) (lt' := fun a b : R => decide (a < b)) (f := c)
    (fun _ _ => rfl) k (List.finRange n)
  have m2 := rawSelect_map (lt := fun i j => decide (c i < c j)) (lt' := fun a b : R => decide (a < b)) (f := d)
    (fun i j => (hcd i j).symm) k (List.finRange n)
  have l1 : roundRecommend r order lowest filter k q items = rawSelect (fun a b => decide (a < b)) k ((List.finRange n).map c) := by
    rw [hc]
    rfl
  have l2 : roundSelect lowest filter k (fun j => dot q (items j)) =
      rawSelect (fun a b => decide (a < b)) k ((List.finRange n).map d) := by
    rw [hd]
    rfl
  rw [l1, l2, m1, m2]
  cases rawSelect (fun i j => decide (c i < c j)) k (List.finRange n) with
  | error e => rfl
  | ok out => simp [Except.map, keyed, Function.comp_def]

end

/-! ## Cosine similarity -/

section
variable {f n : Nat}

/-- How far a cosine may be off; depends on the precision and the number of factors only. -/
noncomputable def Spec.cosineError (u : ℝ) (f : Nat) : ℝ := (1 + u) ^ (f + 2) / (2 - (1 + u) ^ (f + 1)) ^ 2 - 1

theorem scoreError_zero {u : ℝ} (x y : Vec f ℝ) : Spec.scoreError u 0 x y = ((1 + u) ^ f - 1) * ∑ i, |x i * y i| := by
  unfold Spec.scoreError
  ring

theorem length_sq (x : Vec f ℝ) : Spec.length x = Real.sqrt (dot x x) := by
  unfold Spec.length dot
  congr 1
  apply Finset.sum_congr rfl
  intro i _
  ring

theorem length_pos {x : Vec f ℝ} (hx : x ≠ 0) : 0 < Spec.length x := by
  unfold Spec.length
  apply Real.sqrt_pos.mpr
  obtain ⟨i, hi⟩ := Function.ne_iff.mp hx
  refine lt_of_lt_of_le ?_ (Finset.single_le_sum (fun j _ => sq_nonneg (x j)) (Finset.mem_univ i))
  exact sq_pos_of_ne_zero hi

theorem mass_le_length (x y : Vec f ℝ) : ∑ i, |x i * y i| ≤ Spec.length x * Spec.length y := by
  have h := Finset.sum_mul_sq_le_sq_mul_sq Finset.univ (fun i => |x i|) (fun i => |y i|)
  simp only [sq_abs] at h
  have h0 : 0 ≤ ∑ i, |x i| * |y i| := Finset.sum_nonneg fun i _ => by positivity
  have e : ∑ i, |x i * y i| = ∑ i, |x i| * |y i| := Finset.sum_congr rfl fun i _ => abs_mul _ _
  rw [e]
  unfold Spec.length
  rw [← Real.sqrt_mul (Finset.sum_nonneg fun i _ => sq_nonneg (x i))]
  exact Real.le_sqrt_of_sq_le h

/-- Computed norms are relatively accurate. -/
theorem roundNorm_spec (r : Rounding ℝ) (h0 : r.η = 0) (hu : (1 + r.u) ^ (f + 1) < 2) (t : SumTree f) (ht : t.Complete)
    (x : Vec f ℝ) (hx : x ≠ 0) :
    |roundNorm r t x - Spec.length x| ≤ ((1 + r.u) ^ (f + 1) - 1) * Spec.length x := by
  have hun := r.u_nonneg
  have hG1 : 1 ≤ (1 + r.u) ^ f := one_le_pow₀ (by linarith)
  have hGg : (1 + r.u) ^ f ≤ (1 + r.u) ^ (f + 1) := pow_le_pow_right₀ (by linarith) (by omega)
  have hpos := length_pos hx
  have e1 := C62_score r t ht x x
  rw [h0, scoreError_zero] at e1
  have em : ∑ i, |x i * x i| = dot x x := Finset.sum_congr rfl fun i _ => abs_of_nonneg (mul_self_nonneg _)
  rw [em] at e1
  have hS : dot x x = Spec.length x ^ 2 := by
    rw [length_sq, Real.sq_sqrt]
    exact Finset.sum_nonneg fun i _ => mul_self_nonneg _
  rw [hS] at e1
  obtain ⟨l, hl⟩ : ∃ l, l = Spec.length x := ⟨_, rfl⟩
  obtain ⟨G, hG⟩ : ∃ G, G = (1 + r.u) ^ f := ⟨_, rfl⟩
  rw [← hl, ← hG] at e1
  rw [← hl] at hpos
  rw [← hG] at hG1 hGg
  have e2 := abs_le.mp e1
  have s1 : Real.sqrt (t.eval r x x) ≤ G * l := by
    apply Real.sqrt_le_iff.mpr
    refine ⟨by positivity, ?_⟩
    nlinarith [e2.2, sq_nonneg l, mul_nonneg (by linarith : (0 : ℝ) ≤ G) (by linarith : (0 : ℝ) ≤ G - 1)]
  have s2 : (2 - G) * l ≤ Real.sqrt (t.eval r x x) := by
    apply Real.le_sqrt_of_sq_le
    nlinarith [e2.1, sq_nonneg l, mul_nonneg (by linarith : (0 : ℝ) ≤ 2 - G) (by linarith : (0 : ℝ) ≤ G - 1)]
  have s3 : |Real.sqrt (t.eval r x x) - l| ≤ (G - 1) * l := abs_le.mpr ⟨by linarith, by linarith⟩
  have s4 := round_step_zero r h0 s3 (abs_of_pos hpos).le hG1
  have e3 : G * (1 + r.u) = (1 + r.u) ^ (f + 1) := by rw [hG, pow_succ]
  rw [e3] at s4
  have hne : r.rnd (Real.sqrt (t.eval r x x)) ≠ 0 := by
    intro hz
    rw [hz, zero_sub, abs_neg, abs_of_pos hpos] at s4
    nlinarith
  unfold roundNorm
  simp only [if_neg hne]
  rw [← hl]
  exact s4

theorem roundNorm_pos (r : Rounding ℝ) (h0 : r.η = 0) (hu : (1 + r.u) ^ (f + 1) < 2) (t : SumTree f) (ht : t.Complete)
    (x : Vec f ℝ) : 0 < roundNorm r t x := by
  have hun := r.u_nonneg
  by_cases hx : x = 0
  · have hz : t.eval r x x = 0 := by
      have e1 := C62_score r t ht x x
      rw [h0, scoreError_zero, hx] at e1
      simpa [dot, hx] using e1
    unfold roundNorm
    rw [hz, Real.sqrt_zero, rnd_zero r h0]
    simp only [if_true]
    have h1 := abs_le.mp (r.err (1 / 10 ^ 10))
    rw [h0] at h1
    have hu1 : r.u < 1 := by
      have : (1 + r.u) ^ 1 ≤ (1 + r.u) ^ (f + 1) := pow_le_pow_right₀ (by linarith) (by omega)
      linarith
    have h2 : |(1 : ℝ) / 10 ^ 10| = 1 / 10 ^ 10 := abs_of_pos (by positivity)
    rw [h2] at h1
    nlinarith [h1.1]
  · have h1 := abs_le.mp (roundNorm_spec r h0 hu t ht x hx)
    have h2 := length_pos hx
    nlinarith [h1.1]

/-- The score before and after the division by the norm of the query. -/
theorem cosine_steps (r : Rounding ℝ) (h0 : r.η = 0) (hu : (1 + r.u) ^ (f + 1) < 2) (t tx ty : SumTree f) (ht : t.Complete)
    (htx : tx.Complete) (hty : ty.Complete) (x y : Vec f ℝ) :
    |r.rnd (t.eval r x y / roundNorm r ty y) / roundNorm r tx x - Spec.cosine x y| ≤ Spec.cosineError r.u f ∧
    |r.rnd (r.rnd (t.eval r x y / roundNorm r ty y) / roundNorm r tx x) - Spec.cosine x y| ≤ Spec.cosineError r.u f := by
  have hun := r.u_nonneg
  have h1u : 1 ≤ 1 + r.u := by linarith
  have hG1 : 1 ≤ (1 + r.u) ^ f := one_le_pow₀ h1u
  have hg1 : 1 ≤ (1 + r.u) ^ (f + 1) := one_le_pow₀ h1u
  have h2g : 0 < 2 - (1 + r.u) ^ (f + 1) := by linarith
  have hB : ∀ B, B = (1 + r.u) ^ f / (2 - (1 + r.u) ^ (f + 1)) * (1 + r.u) / (2 - (1 + r.u) ^ (f + 1)) * (1 + r.u) - 1 →
      B = Spec.cosineError r.u f := by
    intro B hB
    rw [hB]
    unfold Spec.cosineError
    rw [pow_add (1 + r.u) f 2]
    field_simp
  have hd := C62_score r t ht x y
  rw [h0, scoreError_zero] at hd
  have hdot : |dot x y| ≤ ∑ i, |x i * y i| := Finset.abs_sum_le_sum_abs _ _
  by_cases hz : x = 0 ∨ y = 0
  · have hm : ∑ i, |x i * y i| = 0 := by
      apply Finset.sum_eq_zero
      intro i _
      rcases hz with hz | hz <;> simp [hz]
    rw [hm] at hd hdot
    have hd0 : dot x y = 0 := by simpa using hdot
    rw [hd0] at hd
    have he : t.eval r x y = 0 := by simpa using hd
    have hc : Spec.cosine x y = 0 := by
      unfold Spec.cosine
      rw [if_pos hz]
    rw [he, zero_div, rnd_zero r h0, zero_div, rnd_zero r h0, hc]
    have hpos : 0 ≤ Spec.cosineError r.u f := by
      rw [← hB _ rfl]
      have a1 : 1 ≤ (1 + r.u) ^ f / (2 - (1 + r.u) ^ (f + 1)) := by rw [le_div_iff₀ h2g]; linarith
      have a2 : 1 ≤ (1 + r.u) ^ f / (2 - (1 + r.u) ^ (f + 1)) * (1 + r.u) := by nlinarith
      have a3 : 1 ≤ (1 + r.u) ^ f / (2 - (1 + r.u) ^ (f + 1)) * (1 + r.u) / (2 - (1 + r.u) ^ (f + 1)) := by
        rw [le_div_iff₀ h2g]; linarith
      nlinarith
    simpa using hpos
  · push Not at hz
    obtain ⟨hx, hy⟩ := hz
    have nx := roundNorm_spec r h0 hu tx htx x hx
    have ny := roundNorm_spec r h0 hu ty hty y hy
    have px := length_pos hx
    have py := length_pos hy
    obtain ⟨q1, q2, q3⟩ := quotient_step hd hdot py ny hu hG1 hg1
    have s1 := round_step_zero r h0 q1 q2 q3
    have q3' : 1 ≤ (1 + r.u) ^ f / (2 - (1 + r.u) ^ (f + 1)) * (1 + r.u) := by nlinarith
    obtain ⟨w1, w2, w3⟩ := quotient_step s1 q2 px nx hu q3' hg1
    have s2 := round_step_zero r h0 w1 w2 w3
    have hc : dot x y / Spec.length y / Spec.length x = Spec.cosine x y := by
      unfold Spec.cosine
      rw [if_neg (by push Not; exact ⟨hx, hy⟩), div_div, mul_comm (Spec.length y)]
      rfl
    have hA : (∑ i, |x i * y i|) / Spec.length y / Spec.length x ≤ 1 := by
      rw [div_div, div_le_one (by positivity), mul_comm (Spec.length y)]
      exact mass_le_length x y
    have hA0 : 0 ≤ (∑ i, |x i * y i|) / Spec.length y / Spec.length x := by
      have : 0 ≤ ∑ i, |x i * y i| := Finset.sum_nonneg fun i _ => abs_nonneg _
      positivity
    rw [hc] at w1 s2
    have w3' : 1 ≤ (1 + r.u) ^ f / (2 - (1 + r.u) ^ (f + 1)) * (1 + r.u) / (2 - (1 + r.u) ^ (f + 1)) * (1 + r.u) := by nlinarith
    constructor
    · refine w1.trans ?_
      rw [← hB _ rfl]
      nlinarith
    · refine s2.trans ?_
      rw [← hB _ rfl]
      nlinarith

/-- **C62** (`similar_items`).  Without underflow every similarity is the cosine up to `cosineError`, which depends on precision
and number of factors only, and the ranking is right up to twice that. -/
theorem C62_similar (r : Rounding ℝ) (h0 : r.η = 0) (hu : (1 + r.u) ^ (f + 1) < 2) (order normOrder : Fin n → SumTree f)
    (queryOrder : SumTree f) (ho : ∀ j, (order j).Complete) (hno : ∀ j, (normOrder j).Complete) (hqo : queryOrder.Complete)
    (lowest : ℝ) (filter : List (Fin n)) (k : Nat) (hk : 1 ≤ k) (q : Vec f ℝ) (items : Fin n → Vec f ℝ)
    (hlow : ∀ j, j ∉ filter → lowest < r.rnd ((order j).eval r q (items j) / roundNorm r (normOrder j) (items j)))
    (hmany : k ≤ ((List.finRange n).filter fun j => j ∉ filter).length) :
    ∃ out, roundSimilar r order normOrder queryOrder lowest filter k q items = .ok out ∧
      Spec.ApproxTop k (fun j => j ∉ filter) (fun j => Spec.cosine q (items j)) (fun _ => Spec.cosineError r.u f) out := by
  have hpos := roundNorm_pos r h0 hu queryOrder hqo q
  obtain ⟨N, hN⟩ : ∃ N, N = roundNorm r queryOrder q := ⟨_, rfl⟩
  have steps := fun j => cosine_steps r h0 hu (order j) queryOrder (normOrder j) (ho j) hqo (hno j) q (items j)
  rw [← hN] at hpos
  have scaled : ∀ j, |roundDivide r (roundScores r order q items) (fun j => roundNorm r (normOrder j) (items j)) j -
      Spec.cosine q (items j) * N| ≤ Spec.cosineError r.u f * N := by
    intro j
    have h := (steps j).1
    rw [← hN] at h
    obtain ⟨e, he⟩ : ∃ e, e = r.rnd ((order j).eval r q (items j) / roundNorm r (normOrder j) (items j)) := ⟨_, rfl⟩
    have he' : roundDivide r (roundScores r order q items) (fun j => roundNorm r (normOrder j) (items j)) j = e := he.symm
    rw [he']
    rw [← he] at h
    have e1 : e - Spec.cosine q (items j) * N = (e / N - Spec.cosine q (items j)) * N := by
      field_simp
    rw [e1, abs_mul, abs_of_pos hpos]
    exact mul_le_mul_of_nonneg_right h hpos.le
  obtain ⟨out, h1, h2, h3⟩ := roundSelect_approx scaled lowest filter k hk hlow hmany
  have unscale : ∀ i j : Fin n, Spec.cosine q (items j) * N ≤ Spec.cosine q (items i) * N +
      (Spec.cosineError r.u f * N + Spec.cosineError r.u f * N) →
      Spec.cosine q (items j) ≤ Spec.cosine q (items i) + (Spec.cosineError r.u f + Spec.cosineError r.u f) := by
    intro i j h
    have : Spec.cosine q (items j) * N ≤ (Spec.cosine q (items i) + (Spec.cosineError r.u f + Spec.cosineError r.u f)) * N := by
      linarith
    exact le_of_mul_le_mul_right this hpos
  refine ⟨out.map fun p => (r.rnd (p.1 / roundNorm r queryOrder q), p.2), ?_, ?_, ?_, ?_, ?_, ?_⟩
  · unfold roundSimilar
    simp only
    rw [h1]
    rfl
  · rw [List.length_map]
    exact h2.length
  · rw [List.map_map]
    exact h2.distinct
  · intro p hp
    rw [List.mem_map] at hp
    obtain ⟨p', hp', rfl⟩ := hp
    obtain ⟨i, hi, hs⟩ := h3 p' hp'
    obtain ⟨i', hi', hel, -⟩ := h2.mem p' hp'
    have : i' = i := Fin.ext (by omega)
    subst this
    refine ⟨i', hi, hel, ?_⟩
    have := (steps i').2
    simp only
    rw [hs]
    exact this
  · rw [List.pairwise_map]
    exact h2.sorted.imp fun h i j hi hj => unscale i j (h i j hi hj)
  · intro j hj hno p hp i hi
    rw [List.mem_map] at hp
    obtain ⟨p', hp', rfl⟩ := hp
    rw [List.map_map] at hno
    exact unscale i j (h2.best j hj hno p' hp' i hi)

/-- With 128 factors in single precision a cosine is off by less than `0.00003`. -/
theorem C62_similar_float32 : Spec.cosineError ((2 : ℝ) ^ (-24 : Int)) 128 < 3 / 100000 := by
  unfold Spec.cosineError
  norm_num

/-- Where underflow occurs the similarity can be anything: in single precision the one-factor vector `2^-100`, a normal number,
has similarity `0` to itself, and its cosine is `1`. -/
theorem C62_underflow_violated :
    roundSimilar (binaryFloat 24 (-149)) (fun _ : Fin 1 => .leaf 0) (fun _ => .leaf 0) (.leaf 0) (-1) [] 1
      (fun _ : Fin 1 => (2 : ℝ) ^ (-100 : Int)) (fun _ _ => 2 ^ (-100 : Int)) = .ok [(0, 0)] ∧
    Spec.cosine (fun _ : Fin 1 => (2 : ℝ) ^ (-100 : Int)) (fun _ => 2 ^ (-100 : Int)) = 1 := by
  have hz : (SumTree.leaf (0 : Fin 1)).eval (binaryFloat 24 (-149)) (fun _ => (2 : ℝ) ^ (-100 : Int)) (fun _ => 2 ^ (-100 : Int)) = 0 := by
    show roundBits 24 (-149) ((2 : ℝ) ^ (-100 : Int) * 2 ^ (-100 : Int)) = 0
    apply roundBits_small
    rw [← zpow_add₀ (by norm_num), abs_of_pos (by positivity)]
    exact zpow_lt_zpow_right₀ (by norm_num) (by norm_num)
  have h00 : (binaryFloat 24 (-149) : Rounding ℝ).rnd 0 = 0 := by
    show roundBits 24 (-149) (0 : ℝ) = 0
    apply roundBits_small
    rw [abs_zero]
    positivity
  constructor
  · obtain ⟨c, hc⟩ : ∃ c : Fin 1 → ℝ, c = roundDivide (binaryFloat 24 (-149))
        (roundScores (binaryFloat 24 (-149)) (fun _ : Fin 1 => .leaf 0) (fun _ : Fin 1 => (2 : ℝ) ^ (-100 : Int)) (fun _ _ => 2 ^ (-100 : Int)))
        (fun _ => roundNorm (binaryFloat 24 (-149)) (.leaf 0) (fun _ : Fin 1 => (2 : ℝ) ^ (-100 : Int))) := ⟨_, rfl⟩
    have hc0 : ∀ j, c j = 0 := by
      intro j
      rw [hc]
      unfold roundDivide roundScores
      rw [hz, zero_div, h00]
    obtain ⟨out, h1, h2, h3⟩ := roundSelect_approx (computed := c) (score := c) (ε := fun _ => 0) (by intro j; simp) (-1) [] 1 le_rfl
      (by intro j _; rw [hc0]; norm_num) (by decide)
    obtain ⟨p, rfl⟩ := List.length_eq_one_iff.mp h2.length
    obtain ⟨i, hi, hs⟩ := h3 p (by simp)
    have : p = (0, 0) := by
      ext
      · rw [hs, hc0]
      · rw [hi]; simp
    subst this
    unfold roundSimilar
    simp only
    rw [← hc, h1]
    simp only [bind, Except.bind, pure, Except.pure, List.map_cons, List.map_nil, zero_div, h00]
  · have hne : (fun _ : Fin 1 => (2 : ℝ) ^ (-100 : Int)) ≠ 0 := by
      intro h
      have := congrFun h 0
      have hp : (0 : ℝ) < 2 ^ (-100 : Int) := by positivity
      rw [this] at hp
      exact lt_irrefl _ hp
    unfold Spec.cosine
    rw [if_neg (by tauto)]
    have : Spec.length (fun _ : Fin 1 => (2 : ℝ) ^ (-100 : Int)) = 2 ^ (-100 : Int) := by
      unfold Spec.length
      simp only [Finset.univ_unique, Finset.sum_const, Finset.card_singleton, one_smul]
      exact Real.sqrt_sq (by positivity)
    rw [this]
    simp only [Finset.univ_unique, Finset.sum_const, Finset.card_singleton, one_smul]
    exact div_self (by positivity)

end

/-- In single precision a lower score can win: the scores `2^25` of item 0 and `2^25 + 1` of item 1 both round to `2^25`. -/
theorem C62_exact_violated :
    roundRecommend (binaryFloat 24 (-149)) (fun _ : Fin 2 => .add (.leaf 0) (.leaf 1)) (-2 ^ 127) [] 1
      (fun _ : Fin 2 => (1 : ℚ)) (fun j => if j = 0 then ![2 ^ 25, 0] else ![2 ^ 25, 1]) = .ok [(2 ^ 25, 0)] ∧
    dot (fun _ : Fin 2 => (1 : ℚ)) ![2 ^ 25, 0] < dot (fun _ : Fin 2 => (1 : ℚ)) ![2 ^ 25, 1] := by
  decide +kernel

/-! ## Examples -/

/-- Three items in 8-bit floats: the scores `30.25`, `7.5`, `30` come out as `30`, `7.5`, `30` — and the errors allow for that. -/
example :
    roundRecommend (binaryFloat 4 (-10)) (fun _ : Fin 3 => .add (.leaf 0) (.leaf 1)) (-100) [1] 2
      (![1, 1] : Vec 2 ℚ) ![![30, 1 / 4], ![7, 1 / 2], ![28, 2]] = .ok [(30, 2), (30, 0)] ∧
    Spec.scoreError (2 ^ (-4 : Int)) (2 ^ (-11 : Int)) (![1, 1] : Vec 2 ℚ) ![30, 1 / 4] < 4 := by
  decide +kernel

/-- All hypotheses of `C62_recommend` hold in the example. -/
example : ∃ out, roundRecommend (binaryFloat 4 (-10)) (fun _ : Fin 3 => .add (.leaf 0) (.leaf 1)) (-100) [1] 2
      (![1, 1] : Vec 2 ℚ) ![![30, 1 / 4], ![7, 1 / 2], ![28, 2]] = .ok out ∧ out.length = 2 := by
  obtain ⟨out, h1, h2⟩ := C62_recommend (binaryFloat 4 (-10)) (fun _ : Fin 3 => .add (.leaf 0) (.leaf 1))
    (fun _ => by unfold SumTree.Complete; decide) (-100) [1] 2 (by decide) (![1, 1] : Vec 2 ℚ) ![![30, 1 / 4], ![7, 1 / 2], ![28, 2]]
    (by decide +kernel) (by decide)
  exact ⟨out, h1, h2.length⟩

/-- A fused multiply-add rounds once where a product and a sum round twice. -/
example : (SumTree.fma 0 (.leaf 1)).eval (binaryFloat 4 (-10)) (![17, 1] : Vec 2 ℚ) ![1, -16] = 1 ∧
    (SumTree.add (.leaf 0) (.leaf 1)).eval (binaryFloat 4 (-10)) (![17, 1] : Vec 2 ℚ) ![1, -16] = 2 := by
  decide +kernel

/-- The hypotheses of `C62_similar` hold for single precision and 128 factors. -/
example : (freeFloat 24 : Rounding ℝ).η = 0 ∧ (1 + (freeFloat 24 : Rounding ℝ).u) ^ (128 + 1) < 2 := by
  refine ⟨rfl, ?_⟩
  show (1 + (2 : ℝ) ^ (-((24 : Nat) : Int))) ^ (128 + 1) < 2
  norm_num

end Implicit
