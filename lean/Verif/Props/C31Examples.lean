import Verif.Props.C31
import Verif.Props.C32
import Verif.Props.C84
import Verif.Props.C87
import Verif.Props.C88
import Verif.Props.C89
import Verif.Props.C89Cosine
/-!
# C31, C32, C33, C34, C84, C87, C89: the theorems applied to small data
-/

namespace Implicit

open Spec (cell sumAt NonNegative)

theorem constProcess_apart (arr : List Nat) (n : Nat) :
    (constProcess.globalRandom n).length = n ∧ Spec.KeysApart id arr (constProcess.globalRandom n) :=
  ⟨by simp [constProcess], C31_keys_exact _ _ fun r hr => by
    have : r = 1 / 2 := by
      simp only [constProcess, List.mem_replicate] at hr
      exact hr.2
    rw [this]
    norm_num⟩

/-- Two users with three ratings each, one with one; one rating of each is held out. -/
example := C31_split_partial constRng (insertionArgSortIdx Nat) (insertionArgSortIdx Rat) id constProcess
  ⟨3, 3, [(0, 0, 1), (0, 1, 2), (0, 2, 3), (1, 0, 4), (1, 1, 5), (1, 2, 6), (2, 1, 8)]⟩ (constProcess_apart _) (by decide) (by decide)
  1 le_rfl 0 le_rfl (by norm_num) (.seed 0) () rfl [] rfl

/-- Half of the users are kept for training. -/
example := C31_reserved_partial constRng (insertionArgSortIdx Nat) (insertionArgSortIdx Rat) id
  (fun _ n size h => ⟨List.nodup_range, List.length_range, fun i hi => lt_of_lt_of_le (List.mem_range.mp hi) h⟩) constProcess
  ⟨2, 3, [(0, 0, 1), (0, 1, 1), (0, 2, 1), (1, 0, 1), (1, 1, 1), (1, 2, 1)]⟩ (constProcess_apart _) (by decide) 2 (by decide) rfl
  (fun u => by simp; omega) 1 le_rfl (1 / 2) (by norm_num) (by norm_num) (.seed 0) () rfl

example := C32_leave_k_out_partial constRng (insertionArgSortIdx Nat) (insertionArgSortIdx Rat) id constProcess constProcess
  ⟨3, 3, [(0, 0, 1), (0, 1, 2), (0, 2, 3), (1, 0, 4), (1, 1, 5), (1, 2, 6), (2, 1, 8)]⟩ (constProcess_apart _) (constProcess_apart _) (by decide)
  (by decide) 1 le_rfl (1 / 2) (by norm_num) (by norm_num) (.seed 0) trivial [0] (fun g _ => by cases g; decide +kernel)

theorem exampleCg_pos (i : Nat) : 0 < exampleCg i := by
  unfold exampleCg
  positivity

theorem exampleCg_lt (i : Nat) : exampleCg (i + 1) < exampleCg i := by
  unfold exampleCg
  push_cast
  exact one_div_lt_one_div_of_lt (by positivity) (by linarith)

theorem exampleCg_le (i j : Nat) (h : i ≤ j) : exampleCg j ≤ exampleCg i :=
  antitone_nat_of_succ_le (fun i => (exampleCg_lt i).le) h

theorem example_evaluated : Spec.evaluated (R := Rat) [[(0, 1), (3, 1)], [], [(1, 5)]] = {0, 2} := by decide

theorem example_valid : ∀ u ∈ Spec.evaluated (R := Rat) [[(0, 1), (3, 1)], [], [(1, 5)]],
    Spec.ValidTest 4 (([[(0, 1), (3, 1)], [], [(1, 5)]] : SpRows Rat).getD u []) := by
  rw [example_evaluated]
  intro u hu
  simp only [Finset.mem_insert, Finset.mem_singleton] at hu
  rcases hu with rfl | rfl <;> exact ⟨by decide, by decide⟩

theorem example_ranking (rank : Nat → List Int) (h : ∀ u ∈ [0, 2], (rank u).length = 2 ∧ (rank u).Nodup ∧ ∀ i ∈ rank u, i ∈ Spec.allItems 4) :
    ∀ u ∈ Spec.evaluated (R := Rat) [[(0, 1), (3, 1)], [], [(1, 5)]], Spec.ValidRanking 4 2 (rank u) := by
  rw [example_evaluated]
  intro u hu
  obtain ⟨h1, h2, h3⟩ := h u (by simpa using hu)
  exact ⟨h1, h2, h3⟩

/-- Two evaluated users; user 1 has no test entries. -/
example := C33_unit_partial (fun us => .ok (us.map exampleRank)) 1 le_rfl 2 4 (by decide) exampleCg exampleCg_pos exampleCg_le
  [[(0, 1), (3, 1)], [], [(1, 5)]] exampleRank ⟨0, by decide⟩ example_valid (example_ranking _ (by decide)) (fun _ _ _ => rfl)

example := C34_metrics (fun us => .ok (us.map exampleRank)) 1 le_rfl 2 4 (by decide) exampleCg
  [[(0, 1), (3, 1)], [], [(1, 5)]] exampleRank ⟨0, by decide⟩ example_valid (example_ranking _ (by decide)) (fun _ _ _ => rfl)

/-- Both users get their items first. -/
example := C34_perfect_partial (fun us => .ok (us.map fun u => if u = 0 then [3, 0] else [1, 2])) 1 le_rfl 2 4 (by decide) exampleCg exampleCg_pos
  [[(0, 1), (3, 1)], [], [(1, 5)]] (fun u => if u = 0 then [3, 0] else [1, 2]) ⟨0, by decide⟩ example_valid (example_ranking _ (by decide)) (fun _ _ _ => rfl)
  (by
    rw [example_evaluated]
    intro u hu
    simp only [Finset.mem_insert, Finset.mem_singleton] at hu
    rcases hu with rfl | rfl <;> (unfold Spec.Perfect; decide))

/-- User 0 of the better model has item 3 before item 2. -/
example := C87_better (fun us => .ok (us.map fun u => if u = 0 then [0, 3] else [1, 2])) (fun us => .ok (us.map fun u => if u = 0 then [0, 2] else [1, 2]))
  1 1000 le_rfl (by decide) 2 4 (by decide) exampleCg exampleCg_pos exampleCg_lt [[(0, 1), (3, 1)], [], [(1, 5)]]
  (fun u => if u = 0 then [0, 3] else [1, 2]) (fun u => if u = 0 then [0, 2] else [1, 2]) ⟨0, by decide⟩ example_valid
  (example_ranking _ (by decide)) (example_ranking _ (by decide)) (fun _ _ _ => rfl) (fun _ _ _ => rfl)
  (by
    rw [example_evaluated]
    intro u hu
    simp only [Finset.mem_insert, Finset.mem_singleton] at hu
    rcases hu with rfl | rfl
    · exact (C87_replace {0, 3} 2 [0] [] 2 3 (by decide) (by decide) (by decide)).1
    · exact fun _ _ => le_rfl)

/-- `C84_error` in double precision, with the discounts of the code. -/
example := C84_error (ieee 53 (-1074)) _ (double_orderly (R := ℝ)) threeRecommend 2 (by omega) 3 4 (by omega) (by norm_num)
  (roundDiscount (ieee 53 (-1074))) (C84_discounts 3 (by norm_num)) (by
    have h : (2 ^ 1075 : ℝ)⁻¹ ≤ 1 / 1000 := by
      rw [one_div]
      exact inv_anti₀ (by norm_num) (le_trans (by norm_num) (pow_le_pow_right₀ (by norm_num) (show 10 ≤ 1075 by norm_num)))
    unfold Spec.idealError
    norm_num [ieee, Spec.sumError]
    linarith) threeUsers (fun _ => [0, 1, 2])
  ⟨0, by rw [threeUsers_evaluated]; simp⟩ (by rw [threeUsers_evaluated]; decide) threeUsers_valid (fun _ _ => three_ranking) (fun _ _ _ => rfl)

/-- A user who liked item 0 now likes item 1, too. -/
example := C89_rating insertionHeap (-1000 : Rat) [[(0, 4), (1, 2)], [(0, 2), (1, 3), (2, 5)], [(1, 5), (2, 6)]] (by unfold SquareRows; decide)
  (row := [(0, 1)]) (row' := [(0, 1), (1, 1)]) (by decide) (by decide) (j := 1) (by decide) (v := 1) (by norm_num)
  ⟨fun i => by
    simp only [cell, sumAt]
    by_cases h : i = 1
    · subst h; simp
    · have : ¬ (1 : Nat) = i := fun e => h e.symm
      simp [h, this], fun i ⟨v, hv⟩ => ⟨v, by simp at hv ⊢; exact Or.inl hv⟩⟩ 3 2 (by decide) (by decide) true

example := C89_new_user_partial insertionHeap insertionArgSort (-1000 : Rat) (n := 3) (K := 2) (by decide) (by decide)
  [[(0, 1), (1, 2)], [(1, 1), (2, 1)]] [[(0, 1), (2, 3)]] [(1, 3), (2, 4)] (by decide)

example := C89_more_neighbours_scores insertionHeap (-1000 : Rat) (n := 3) (K := 1) (K' := 2) (by decide) (by decide) (by decide)
  [[(0, 1), (1, 2)], [(1, 1), (2, 1)]] (by decide) (by
    intro row hrow i
    simp only [List.mem_cons, List.not_mem_nil, or_false] at hrow
    rcases hrow with rfl | rfl <;> (simp only [cell, sumAt]; simp; split_ifs <;> norm_num)) (row := [(0, 1), (2, 3)]) (by decide) (by decide +kernel) 3 3
  (by decide) (by decide) false

end Implicit
