import Verif.Props.C08
import Verif.Spec.Cosine
import Mathlib.Algebra.Order.BigOperators.Ring.Finset
import Mathlib.Analysis.Real.Sqrt

/-!
# C07 — similarity scores are cosines and an entity is maximally similar to itself
-/

namespace Implicit

open Finset

variable {f : Nat}

/-- `np.linalg.norm(v)` (`implicit/cpu/matrix_factorization_base.py:235,243`), in exact arithmetic. -/
noncomputable def l2norm (v : Vec f ℝ) : ℝ := Real.sqrt (dot v v)

theorem dot_eq_sum (x y : Vec f ℝ) : dot x y = ∑ i, x i * y i := rfl

theorem l2norm_eq (v : Vec f ℝ) : l2norm v = Spec.length v := by
  unfold l2norm Spec.length
  congr 1
  rw [dot_eq_sum]
  exact Finset.sum_congr rfl (fun i _ => by ring)

theorem dot_self_eq_zero (v : Vec f ℝ) : dot v v = 0 ↔ v = 0 := by
  rw [dot_eq_sum, Finset.sum_eq_zero_iff_of_nonneg (fun i _ => mul_self_nonneg _)]
  constructor
  · intro h; funext i; exact mul_self_eq_zero.mp (h i (mem_univ i))
  · intro h i _; rw [h]; simp

theorem dot_self_nonneg (v : Vec f ℝ) : 0 ≤ dot v v := by
  rw [dot_eq_sum]; exact Finset.sum_nonneg (fun i _ => mul_self_nonneg _)

theorem l2norm_eq_zero (v : Vec f ℝ) : l2norm v = 0 ↔ v = 0 := by
  unfold l2norm
  rw [Real.sqrt_eq_zero (dot_self_nonneg v), dot_self_eq_zero]

theorem l2norm_nonneg (v : Vec f ℝ) : 0 ≤ l2norm v := Real.sqrt_nonneg _

theorem l2norm_pos {v : Vec f ℝ} (h : v ≠ 0) : 0 < l2norm v :=
  lt_of_le_of_ne (l2norm_nonneg v) (fun h' => h ((l2norm_eq_zero v).mp h'.symm))

/-- Cauchy-Schwarz. -/
theorem abs_dot_le (x y : Vec f ℝ) : |dot x y| ≤ l2norm x * l2norm y := by
  rw [← Real.sqrt_sq_eq_abs]
  unfold l2norm
  rw [← Real.sqrt_mul (dot_self_nonneg x)]
  apply Real.sqrt_le_sqrt
  rw [dot_eq_sum, dot_eq_sum, dot_eq_sum]
  have := Finset.sum_mul_sq_le_sq_mul_sq Finset.univ x y
  calc (∑ i, x i * y i) ^ 2 ≤ (∑ i, x i ^ 2) * ∑ i, y i ^ 2 := this
    _ = _ := by
      congr 1 <;> exact Finset.sum_congr rfl (fun i _ => by ring)

/-- The code's formula with the replaced zero norms is the cosine, whatever the replacement value. -/
theorem dot_div_safe (eps : ℝ) (x y : Vec f ℝ) :
    dot x y / (if l2norm y = 0 then eps else l2norm y) / (if l2norm x = 0 then eps else l2norm x) =
      Spec.cosine x y := by
  unfold Spec.cosine
  by_cases hx : x = 0
  · have : dot x y = 0 := by subst hx; simp [dot]
    rw [if_pos (Or.inl hx), this]; simp
  · by_cases hy : y = 0
    · have : dot x y = 0 := by subst hy; simp [dot]
      rw [if_pos (Or.inr hy), this]; simp
    · have hxy : ¬ (x = 0 ∨ y = 0) := by tauto
      rw [if_neg hxy, if_neg (by rwa [l2norm_eq_zero]), if_neg (by rwa [l2norm_eq_zero]),
        ← l2norm_eq, ← l2norm_eq, dot_eq_sum, div_div, mul_comm (l2norm y)]

theorem cosine_abs_le_one (x y : Vec f ℝ) : |Spec.cosine x y| ≤ 1 := by
  unfold Spec.cosine
  split_ifs with h
  · simp
  · push Not at h
    rw [← l2norm_eq, ← l2norm_eq, ← dot_eq_sum, abs_div,
      abs_of_pos (mul_pos (l2norm_pos h.1) (l2norm_pos h.2)),
      div_le_one (mul_pos (l2norm_pos h.1) (l2norm_pos h.2))]
    exact abs_dot_le x y

theorem cosine_self {x : Vec f ℝ} (h : x ≠ 0) : Spec.cosine x x = 1 := by
  unfold Spec.cosine
  rw [if_neg (by tauto), ← l2norm_eq, ← dot_eq_sum]
  have : l2norm x * l2norm x = dot x x := Real.mul_self_sqrt (dot_self_nonneg x)
  rw [this]
  exact div_self (fun h' => h ((dot_self_eq_zero x).mp h'))

/-- **C07**: for `N` up to the number of entities, `similar_*` ranks all entities by the cosine
of the angle; all scores are in `[-1, 1]`; if the queried factor is not zero, the best score is 1, the
entity itself has score 1 whenever listed, and nothing scores above it; entities with zero factor
score 0.  `eps` is the code's `1e-10`. -/
theorem C07_similar_cosine_partial (H : HeapImpl (ℝ × Nat) pairLt) (neginf eps : ℝ) (heps : 0 < eps)
    (factors : List (Vec f ℝ)) (u : Nat) (x : Vec f ℝ) (hu : factors[u]? = some x)
    (N : Nat) (hN : 1 ≤ N) (hle : N ≤ factors.length) :
    ∃ out, similar H neginf factors (safeNorms l2norm eps factors) (.one u) N none none =
        .ok (.one out) ∧ out.length = N ∧
      Spec.IsRanking N (fun i => i < factors.length)
        (fun i => (factors[i]?).map (Spec.cosine x)) out ∧
      (∀ p ∈ out, -1 ≤ p.2 ∧ p.2 ≤ 1) ∧
      (x ≠ 0 → (∀ p ∈ out, p.1 = u → p.2 = 1) ∧ (∃ p, out.head? = some p ∧ p.2 = 1)) ∧
      (∀ p ∈ out, factors[p.1]? = some 0 → p.2 = 0) := by
  have hlen : (safeNorms l2norm eps factors).length = factors.length := by simp [safeNorms]
  have hget : ∀ (i : Nat) y, factors[i]? = some y →
      (safeNorms l2norm eps factors)[i]? = some (if l2norm y = 0 then eps else l2norm y) := by
    intro i y hy; simp [safeNorms, hy]
  have hpos : ∀ n ∈ safeNorms l2norm eps factors, 0 < n := by
    intro n hn
    obtain ⟨v, _, rfl⟩ := List.mem_map.mp hn
    split_ifs with h
    · exact heps
    · exact lt_of_le_of_ne (l2norm_nonneg v) (fun h' => h h'.symm)
  obtain ⟨good, e, hr, hl⟩ :=
    C08_plain_answer H neginf factors _ hlen hpos u x hu _ (hget u x hu) N hN
  have hsc : simScore factors (safeNorms l2norm eps factors) x
      (if l2norm x = 0 then eps else l2norm x) = fun i => (factors[i]?).map (Spec.cosine x) := by
    funext i
    unfold simScore
    cases hi : factors[i]? with
    | none => rfl
    | some y => rw [hget i y hi]; simp only [Option.map_some]; rw [dot_div_safe]
  rw [hsc] at hr
  have hscore : ∀ p ∈ good, ∃ y, factors[p.1]? = some y ∧ p.2 = Spec.cosine x y := by
    intro p hp
    have := (hr.mem p hp).2
    cases hi : factors[p.1]? with
    | none => rw [hi] at this; cases this
    | some y => rw [hi] at this; exact ⟨y, rfl, (Option.some.inj this).symm⟩
  have hbound : ∀ p ∈ good, -1 ≤ p.2 ∧ p.2 ≤ 1 := by
    intro p hp
    obtain ⟨y, _, h⟩ := hscore p hp
    rw [h]; exact abs_le.mp (cosine_abs_le_one x y)
  refine ⟨good, ?_, by omega, hr, hbound, ?_, ?_⟩
  · have : N - factors.length = 0 := by omega
    simpa [this] using e
  · intro hx
    have hself : ∀ p ∈ good, p.1 = u → p.2 = 1 := by
      intro p hp hpu
      obtain ⟨y, hy, h⟩ := hscore p hp
      rw [hpu, hu] at hy; cases hy
      rw [h, cosine_self hx]
    refine ⟨hself, ?_⟩
    cases hg : good with
    | nil => rw [hg] at hl; simp at hl; omega
    | cons p rest =>
      refine ⟨p, rfl, ?_⟩
      have hp : p ∈ good := by rw [hg]; simp
      refine le_antisymm (hbound p hp).2 ?_
      by_cases hmem : u ∈ good.map Prod.fst
      · obtain ⟨q, hq, hqu⟩ := List.mem_map.mp hmem
        have hq1 := hself q hq hqu
        rw [hg] at hq
        rcases List.mem_cons.mp hq with rfl | hq
        · exact le_of_eq hq1.symm
        · have := hr.sorted
          rw [hg] at this
          rw [← hq1]
          exact (List.pairwise_cons.mp this).1 q hq
      · refine hr.best u 1 ?_ ?_ hmem p hp
        · exact (List.getElem?_eq_some_iff.mp hu).1
        · simp only [hu, Option.map_some, cosine_self hx]
  · intro p hp h0
    obtain ⟨y, hy, h⟩ := hscore p hp
    rw [h0] at hy; cases hy
    rw [h]; simp [Spec.cosine]

/-- **C07 is violated** for `N` larger than the number of entities: asking for the neighbours of
entity 0 (with non-zero factor, so that its cosine with itself is 1), the answer contains the entry
"entity 0, score 0". -/
theorem C07_padding_violated (H : HeapImpl (ℝ × Nat) pairLt) (neginf eps : ℝ) (heps : 0 < eps)
    (factors : List (Vec f ℝ)) (x : Vec f ℝ) (hu : factors[0]? = some x) (hx : x ≠ 0)
    (N : Nat) (hlt : factors.length < N) :
    ∃ out, similar H neginf factors (safeNorms l2norm eps factors) (.one 0) N none none =
        .ok (.one out) ∧ (0, 0) ∈ out ∧ (factors[0]?).map (Spec.cosine x) = some 1 := by
  have hlen : (safeNorms l2norm eps factors).length = factors.length := by simp [safeNorms]
  have hpos : ∀ n ∈ safeNorms l2norm eps factors, 0 < n := by
    intro n hn
    obtain ⟨v, _, rfl⟩ := List.mem_map.mp hn
    split_ifs with h
    · exact heps
    · exact lt_of_le_of_ne (l2norm_nonneg v) (fun h' => h h'.symm)
  obtain ⟨good, e, _, _⟩ :=
    C08_plain_answer H neginf factors _ hlen hpos 0 x hu (if l2norm x = 0 then eps else l2norm x)
      (by simp [safeNorms, hu]) N (by omega)
  refine ⟨_, e, ?_, by rw [hu, Option.map_some, cosine_self hx]⟩
  refine List.mem_append_right _ (List.mem_replicate.mpr ⟨by omega, rfl⟩)

example : ([![1, 2]] : List (Vec 2 ℝ))[0]? = some ![1, 2] ∧ (![1, 2] : Vec 2 ℝ) ≠ 0 ∧
    ([![1, 2]] : List (Vec 2 ℝ)).length < 2 := by
  refine ⟨rfl, ?_, by simp⟩
  intro h; have := congrFun h 0; simp at this

/-- The hypotheses are met by a table of three vectors, one of them zero. -/
example : (0 : ℝ) < 1e-10 ∧ ([![1, 2], ![0, 0], ![3, -1]] : List (Vec 2 ℝ))[0]? = some ![1, 2] ∧
    1 ≤ 3 ∧ 3 ≤ ([![1, 2], ![0, 0], ![3, -1]] : List (Vec 2 ℝ)).length := by
  refine ⟨by norm_num, rfl, by omega, by simp⟩

end Implicit
