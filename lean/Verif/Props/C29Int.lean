import Verif.Model.IntWeights
import Verif.Props.C29
import Mathlib.Analysis.Real.Sqrt
import Mathlib.Tactic.NormNum
/-!
# C29 for counts stored as integers
-/

namespace Implicit

/-- **C29** (integers).  Counts whose squares fit into their type are normalised like the same numbers in floating point: every
row with an entry other than zero gets unit length. -/
theorem C29_integers_partial (bits : Nat) (hb : 1 ≤ bits) (X : IntCoo)
    (hfit : ∀ e ∈ X.entries, e.2.2 ^ 2 < 2 ^ (bits - 1)) :
    normalizeInts bits X = normalizeRows X.toReal ∧
    ∀ e ∈ X.entries, e.2.2 ≠ 0 → Spec.rowSquares (normalizeInts bits X).entries e.1 = 1 := by
  have hsq : ∀ e ∈ X.entries, intSquare bits e.2.2 = e.2.2 ^ 2 := by
    intro e he
    unfold intSquare
    have h1 := hfit e he
    have h2 : 0 ≤ e.2.2 ^ 2 := sq_nonneg _
    have h3 : (2 : Int) ^ bits = 2 * 2 ^ (bits - 1) := by
      conv_lhs => rw [show bits = bits - 1 + 1 by omega, pow_succ]
      ring
    rw [← sq]
    apply Int.bmod_eq_of_le
    · push_cast
      rw [h3]
      omega
    · push_cast
      rw [h3]
      omega
  have hw : (X.entries.map fun e => (e.1, (intSquare bits e.2.2 : ℝ))) = X.entries.map fun e => (e.1, (e.2.2 : ℝ) ^ 2) := by
    refine List.map_congr_left fun e he => ?_
    rw [hsq e he]
    push_cast
    rfl
  have heq : normalizeInts bits X = normalizeRows X.toReal := by
    unfold normalizeInts normalizeRows IntCoo.toReal
    simp only [hw, List.map_map, Function.comp_def]
  refine ⟨heq, fun e he hne => ?_⟩
  rw [heq]
  exact C29_unit X.toReal (e.1, e.2.1, (e.2.2 : ℝ)) (List.mem_map.mpr ⟨e, he, rfl⟩) (Int.cast_ne_zero.mpr hne)

/-- The squares of play counts overflow: in a matrix of 32 bit integers an item played `65537` times by its only listener gets
the weight `65537 / √131073`, more than `181`, instead of `1`; a count of `50000` gives the square root of a negative number,
`65536` a division by zero. -/
theorem C29_integers_violated :
    let X : IntCoo := ⟨1, [(0, 0, 65537)]⟩
    (normalizeInts 32 X).entries = [(0, 0, 65537 / Real.sqrt 131073)] ∧
    (181 : ℝ) < 65537 / Real.sqrt 131073 ∧ (normalizeRows X.toReal).entries = [(0, 0, 1)] ∧
    intSquare 32 50000 < 0 ∧ intSquare 32 65536 = 0 ∧ intSquare 8 12 < 0 := by
  have h1 : intSquare 32 65537 = 131073 := by decide +kernel
  have hs : Real.sqrt ((65537 : ℝ) ^ 2) = 65537 := Real.sqrt_sq (by norm_num)
  refine ⟨?_, ?_, ?_, by decide +kernel, by decide +kernel, by decide +kernel⟩
  · simp [normalizeInts, bincountW, h1]
  · rw [lt_div_iff₀ (Real.sqrt_pos.mpr (by norm_num))]
    have : Real.sqrt 131073 < 362.05 := by
      rw [Real.sqrt_lt' (by norm_num)]
      norm_num
    nlinarith
  · simp [normalizeRows, IntCoo.toReal, bincountW, hs]

/-- Counts that fit. -/
example : ∀ e ∈ ([(0, 0, 3), (0, 1, 46340), (1, 0, -7)] : List (Nat × Nat × Int)), e.2.2 ^ 2 < 2 ^ (32 - 1) := by
  decide +kernel

end Implicit
