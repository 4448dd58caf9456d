import Verif.Props.C98Total
/-!
# C98 — examples

Three items with one factor each, in single precision, everything else in double precision.  The user likes the first item with
confidence 3 and the second with confidence 2; the third is explained.
-/

namespace Implicit

theorem explain_example (H : HeapImpl (ℝ × Nat) pairLt) :
    ∃ ex s, roundExplain (roundOps (freeFloat 24) true) (roundOps (freeFloat 53) true) H (freeFloat 24) (freeFloat 53) (triangleSolver 1)
      [fun _ => 1, fun _ => 2, fun _ => 3] (fun _ _ => .add (.leaf 1) (.fma 2 (.leaf 0))) (fun _ => .leaf 0) 1 [(0, 3), (1, 2)] 2 none 1 =
        .ok ex ∧ |ex.total - 1| ≤ 1 / 1000 ∧ ex.contributions = [(1, s)] ∧ |s - 4 / 7| ≤ 1 / 1000 := by
  have hl : ∀ c : ℝ, Spec.length (fun _ : Fin 1 => c) ^ 2 = c ^ 2 := fun c => by rw [length_sq_sum]; simp
  have hl1 : ∀ c : ℝ, 0 ≤ c → Spec.length (fun _ : Fin 1 => c) = c := fun c hc => by
    unfold Spec.length
    simp [Real.sqrt_sq hc]
  have hT : Spec.systemSize [fun _ : Fin 1 => (1 : ℝ), fun _ => 2, fun _ => 3] [(0, 3), (1, 2)] 1 = 31 := by
    unfold Spec.systemSize
    simp [hl]
    norm_num
  have hB : Spec.targetSize [fun _ : Fin 1 => (1 : ℝ), fun _ => 2, fun _ => 3] [(0, 3), (1, 2)] = 7 := by
    unfold Spec.targetSize
    simp [hl1]
    norm_num
  have hn : Spec.explainNoise (freeFloat 24).u 0 [fun _ : Fin 1 => (1 : ℝ), fun _ => 2, fun _ => 3] [(0, 3), (1, 2)] 1 ≤ 1 / 40000 := by
    unfold Spec.explainNoise
    rw [hT]
    unfold Spec.systemGrowth freeFloat
    norm_num
  have hn0 := explainNoise_nonneg (roundOps_accurate (freeFloat 24) rfl true) (triangleSolver_stable 1)
    [fun _ : Fin 1 => (1 : ℝ), fun _ => 2, fun _ => 3] one_pos [(0, 3), (1, 2)]
  obtain ⟨ex, w, z, hex, hw, hz, htot, hwithin⟩ := C98_explain (roundOps_accurate (freeFloat 24) rfl true)
    (roundOps_accurate (freeFloat 53) rfl true) (by unfold freeFloat; norm_num) (freeFloat 24) (freeFloat 53) rfl rfl rfl rfl
    (triangleSolver_stable 1) H [fun _ => 1, fun _ => 2, fun _ => 3] (fun _ _ => .add (.leaf 1) (.fma 2 (.leaf 0)))
    (fun _ _ => by unfold SumTree.Complete; decide) (fun _ => .leaf 0) (fun _ => by unfold SumTree.Complete; decide) one_pos
    [(0, 3), (1, 2)] ⟨by simp, by simp⟩ (by linarith) 2 (fun _ => 3) rfl 1
  have hw0 : w 0 = 1 / 7 := by
    have := hw 0
    have h1 : List.lookup 1 [(0, (3 : ℝ)), (1, 2)] = some 2 := rfl
    have h2 : List.lookup 2 [(0, (3 : ℝ)), (1, 2)] = none := rfl
    simp [Spec.confidence, Fin.sum_univ_succ, h1, h2] at this
    linarith
  have hz0 : z 0 = 1 / 3 := by
    have := hz 0
    have h1 : List.lookup 1 [(0, (3 : ℝ)), (1, 2)] = some 2 := rfl
    have h2 : List.lookup 2 [(0, (3 : ℝ)), (1, 2)] = none := rfl
    simp [Spec.confidence, Spec.preference, Fin.sum_univ_succ, h1, h2] at this
    linarith
  have herr : ∀ m ≤ 3, Spec.explainError (freeFloat 24).u (freeFloat 53).u 0 [fun _ : Fin 1 => (1 : ℝ), fun _ => 2, fun _ => 3]
      [(0, 3), (1, 2)] 1 (fun _ => 3) m ≤ 1 / 10000 := by
    intro m hm
    unfold Spec.explainError
    generalize Spec.explainNoise (freeFloat 24).u 0 [fun _ : Fin 1 => (1 : ℝ), fun _ => 2, fun _ => 3] [(0, 3), (1, 2)] 1 = n at hn hn0
    rw [hl1 3 (by norm_num), div_one]
    have h1 : ((1 : ℝ) + (freeFloat 53).u) ^ (1 + m) ≤ (1 + (freeFloat 53).u) ^ 4 := growth_mono (freeFloat 53).u_nonneg (by omega)
    have h2 : ((1 : ℝ) + (freeFloat 53).u) ^ 4 - 1 ≤ 1 / 10 ^ 12 := by
      unfold freeFloat
      norm_num
    have h3 : (1 : ℝ) ≤ (1 + (freeFloat 53).u) ^ (1 + m) := one_le_growth (freeFloat 53).u_nonneg _
    have h4 : 3 / (1 - n) ≤ 31 / 10 := by
      rw [div_le_iff₀ (by linarith)]
      linarith
    have h5 : (0 : ℝ) ≤ 3 / (1 - n) := div_nonneg (by norm_num) (by linarith)
    calc _ ≤ (1 / 10 ^ 12 + 1 / 40000) * (31 / 10 : ℝ) := mul_le_mul (by linarith) h4 h5 (by norm_num)
      _ ≤ _ := by norm_num
  obtain ⟨hlen, -, hfaith, hbest, -⟩ := hwithin
  obtain ⟨⟨i, s⟩, hs⟩ : ∃ p, ex.contributions = [p] := List.length_eq_one_iff.mp (by rw [hlen]; simp)
  rw [hs] at hfaith hbest
  have he1 := herr 1 (by norm_num)
  obtain ⟨c, hc, -, hcs⟩ := hfaith (i, s) (by simp)
  simp only [List.mem_cons, Prod.mk.injEq, List.not_mem_nil, or_false] at hc
  refine ⟨ex, s, hex, ?_, ?_⟩
  · rw [hB, show dot (fun _ : Fin 1 => (3 : ℝ)) z = 1 by simp [dot, hz0]] at htot
    refine htot.trans ?_
    have := herr (1 + 2) (by norm_num)
    rw [show [(0, (3 : ℝ)), (1, 2)].length = 2 from rfl]
    linarith
  · rcases hc with ⟨rfl, rfl⟩ | ⟨rfl, rfl⟩
    · exfalso
      have h1 := hbest (1, 2) (by simp) (by norm_num) (by simp) (0, s) (by simp)
      simp only [List.getElem?_cons_succ, List.getElem?_cons_zero, Option.getD_some, Fin.sum_univ_one, hw0] at h1 hcs
      rw [hl1 2 (by norm_num)] at h1
      rw [hl1 1 (by norm_num)] at hcs
      have := (abs_le.mp hcs).2
      linarith
    · refine ⟨hs, ?_⟩
      simp only [List.getElem?_cons_succ, List.getElem?_cons_zero, Option.getD_some, Fin.sum_univ_one, hw0] at hcs
      rw [hl1 2 (by norm_num), show (2 : ℝ) * (1 / 7 * 2) = 4 / 7 by norm_num] at hcs
      refine hcs.trans ?_
      linarith

example (H : HeapImpl (ℝ × Nat) pairLt) :
    ∃ ex s, roundExplain (roundOps (freeFloat 24) true) (roundOps (freeFloat 53) true) H (freeFloat 24) (freeFloat 53) (triangleSolver 1)
      [fun _ => 1, fun _ => 2, fun _ => 3] (fun _ _ => .add (.leaf 1) (.fma 2 (.leaf 0))) (fun _ => .leaf 0) 1 [(0, 3), (1, 2)] 2 none 1 =
        .ok ex ∧ |ex.total - 1| ≤ 1 / 1000 ∧ ex.contributions = [(1, s)] ∧ |s - 4 / 7| ≤ 1 / 1000 := explain_example H

end Implicit
