import Verif.Lemmas.GpuKernel
import Verif.Lemmas.RoundCgDense
import Verif.Lemmas.RoundGpuDot
import Verif.Lemmas.RoundLoss
import Verif.Model.RoundGpuLoss

set_option linter.unusedSectionVars false

namespace Implicit

variable {f : Nat}

/-- Every row is handled by one block. -/
theorem gridStride_schedule {grid : Nat} (hg : 0 < grid) (n : Nat) {blocks : List Nat} (hb : blocks.Perm (List.range grid)) :
    Spec.Schedule n (blocks.map fun b => gridStride grid n b) := by
  have hlt : ∀ b ∈ blocks, b < grid := fun b h => List.mem_range.mp (hb.mem_iff.mp h)
  have hnd : blocks.Nodup := hb.nodup_iff.mpr List.nodup_range
  unfold Spec.Schedule
  rw [← List.flatMap_def]
  refine (List.perm_ext_iff_of_nodup ?_ List.nodup_range).mpr fun i => ?_
  · rw [List.nodup_flatMap]
    refine ⟨fun b _ => nodup_gridStride _, hnd.pairwise_of_forall_ne fun b h b' h' hne => ?_⟩
    intro i hi hi'
    have h1 := ((mem_gridStride hg _ _).mp hi).2.2
    have h2 := ((mem_gridStride hg _ _).mp hi').2.2
    rw [Nat.mod_eq_of_lt (hlt b h)] at h1
    rw [Nat.mod_eq_of_lt (hlt b' h')] at h2
    omega
  · rw [List.mem_flatMap, List.mem_range]
    constructor
    · rintro ⟨b, _, h⟩
      exact ((mem_gridStride hg _ _).mp h).1
    · intro h
      refine ⟨i % grid, hb.mem_iff.mpr (List.mem_range.mpr (Nat.mod_lt _ hg)), (mem_gridStride hg _ _).mpr ⟨h, Nat.mod_le _ _, by simp⟩⟩

section
variable {A : FloatOps ℝ} {Q : CgProducts f} {u : ℝ} {H : Mat f ℝ}

theorem near_gpuLossFold (hA : A.Accurate u) (hQ : Q.Accurate u H) (x : Vec f ℝ) (es : List (Vec f ℝ × ℝ)) {k : Nat} (hk : f + 7 ≤ k)
    {M v w : Vec f ℝ} (h : ∀ a, Near ((1 + u) ^ k) (M a) (v a) (w a)) (a : Fin f) :
    Near ((1 + u) ^ (k + es.length))
      (M a + (es.map fun e => (2 * gain e.2 + (|e.2| + 1) * dot (fun b => |e.1 b|) (fun b => |x b|)) * |e.1 a|).sum)
      (es.foldl (fun r e =>
        if A.lt A.zero e.2 then A.axpyVec (A.axpy (A.sub e.2 A.one) (Q.dot e.1 x) (A.mul (-2) e.2)) e.1 r
        else A.axpyVec (A.mul (A.sub (-e.2) A.one) (Q.dot e.1 x)) e.1 r) v a)
      (w a + (es.map fun e => (-2 * gain e.2 + (conf e.2 - 1) * dot e.1 x) * e.1 a).sum) := by
  induction es generalizing k M v w with
  | nil => simpa using h a
  | cons e es ih =>
    have hstep : ∀ a, Near ((1 + u) ^ (k + 1)) (M a + (2 * gain e.2 + (|e.2| + 1) * dot (fun b => |e.1 b|) (fun b => |x b|)) * |e.1 a|)
        ((if A.lt A.zero e.2 then A.axpyVec (A.axpy (A.sub e.2 A.one) (Q.dot e.1 x) (A.mul (-2) e.2)) e.1 v
          else A.axpyVec (A.mul (A.sub (-e.2) A.one) (Q.dot e.1 x)) e.1 v) a)
        (w a + (-2 * gain e.2 + (conf e.2 - 1) * dot e.1 x) * e.1 a) := by
      intro a
      rw [hA.zero]
      by_cases hp : 0 < e.2
      · rw [if_pos ((hA.lt _ _).mpr hp)]
        have h1 := near_mul hA (near_self (-2) u) (near_self e.2 u) (m := 1) (by omega)
        have h2 := near_axpy hA (near_conf_pos hA e.2 hp) (near_cgDot hA.nonneg hQ e.1 x) h1 (m := f + 6) (by omega) (by omega)
        have h3 := near_axpy hA h2 (near_self (e.1 a) u) (h a) (m := k + 1) (by omega) (by omega)
        have hg : gain e.2 = e.2 := if_pos hp
        rw [hg]
        rw [abs_neg, abs_two] at h3
        nth_rw 1 [abs_of_pos hp] at h3
        exact h3
      · rw [if_neg (fun hc => hp ((hA.lt _ _).mp hc))]
        have h2 := near_mul hA (near_conf_neg hA e.2 hp) (near_cgDot hA.nonneg hQ e.1 x) (m := f + 5) (by omega)
        have h3 := near_axpy hA h2 (near_self (e.1 a) u) (h a) (m := k + 1) (by omega) (by omega)
        have hg : gain e.2 = 0 := if_neg hp
        rw [hg, mul_zero, mul_zero, zero_add, zero_add]
        exact h3
    have := ih (k := k + 1) (by omega) hstep
    simp only [List.map_cons, List.sum_cons, List.foldl_cons, List.length_cons, ← add_assoc] at this ⊢
    rw [show k + es.length + 1 = k + 1 + es.length by omega]
    exact this

/-- The products of the kernel with the arguments of `dot` exchanged. -/
noncomputable def swapped (Q : CgProducts f) : BlasProducts f where
  dot x y := Q.dot y x
  symv G x := mulVec (lowerPart G) x
  symvNeg G x := fun a => -mulVec (lowerPart G) x a

theorem swapped_accurate (hu : 0 ≤ u) (hQ : Q.Accurate u H) : (swapped Q).Accurate u where
  dot x y := by
    have := hQ.dot y x
    rw [dot_comm] at this
    rw [show ∑ i, |x i| * |y i| = ∑ i, |y i| * |x i| from Finset.sum_congr rfl fun i _ => mul_comm _ _]
    exact this
  symv G x a := by
    show |mulVec (lowerPart G) x a - mulVec (lowerPart G) x a| ≤ _
    rw [sub_self, abs_zero]
    exact mul_nonneg (by linarith [one_le_growth hu (f + 1)]) (Finset.sum_nonneg fun b _ => mul_nonneg (abs_nonneg _) (abs_nonneg _))
  symvNeg G x a := by
    show |-mulVec (lowerPart G) x a - -mulVec (lowerPart G) x a| ≤ _
    rw [sub_self, abs_zero]
    exact mul_nonneg (by linarith [one_le_growth hu (f + 3)]) (Finset.sum_nonneg fun b _ => mul_nonneg (abs_nonneg _) (abs_nonneg _))

theorem near_gpuLossProduct (hA : A.Accurate u) (hQ : Q.Accurate u H) (Y : List (Vec f ℝ))
    (hH : ∀ a b, Near ((1 + u) ^ (Y.length + 5)) (sizeMat Y 0 a b) (H a b) (gram Y a b)) (es : List (Vec f ℝ × ℝ)) (x : Vec f ℝ) :
    Near ((1 + u) ^ (Y.length + es.length + 2 * f + 8))
      ((traceSize Y 0 es * Spec.length x + 2 * (es.map fun e => gain e.2 * Spec.length e.1).sum) * Spec.length x)
      (Q.dot x (gpuLossVector A Q es x)) (dot (lossVector Y es x) x) := by
  have h1 := fun a => near_gpuLossFold hA hQ x es (k := Y.length + f + 7) (by omega)
    (fun a => (near_matVec hA.nonneg hH x _ (hQ.times x) a).mono (growth_mono hA.nonneg (show _ ≤ Y.length + f + 7 by omega))) a
  have h2 := near_dot_of hA.nonneg (swapped_accurate hA.nonneg hQ) h1 x
  exact (h2.mono (growth_mono hA.nonneg (show _ ≤ Y.length + es.length + 2 * f + 8 by omega))).widen (lossVector_size Y es x)

theorem near_gpuSquare (hA : A.Accurate u) (hQ : Q.Accurate u H) (x : Vec f ℝ) :
    Near ((1 + u) ^ (f + 1)) (Spec.length x ^ 2) (Q.dot x x) (dot x x) :=
  near_square hA (swapped_accurate hA.nonneg hQ) x

/-- The sum of a block. -/
theorem near_blockSum (hA : A.Accurate u) {G : ℝ} (hG : 1 ≤ G) (T : Nat → List Term) (rows : List Nat) {K : Nat}
    (hT : ∀ i ∈ rows, ∀ t ∈ T i, Near G t.size t.computed t.meant) (hK : (rows.map fun i => (T i).length).sum ≤ K) :
    Near (G * (1 + u) ^ K) (rows.map fun i => ((T i).map Term.size).sum).sum (blockSum A (fun i => (T i).map Term.computed) rows)
      (rows.map fun i => ((T i).map Term.meant).sum).sum := by
  have h := near_foldRows hA hG T rows hT (near_start hG hA 0)
  rw [zero_add, zero_add, zero_add] at h
  exact h.mono (mul_le_mul_of_nonneg_left (growth_mono hA.nonneg hK) (by linarith))

/-- The sum of the blocks. -/
theorem near_blocks (hA : A.Accurate u) {G : ℝ} (hG : 1 ≤ G) (c s S : Nat → ℝ) (blocks : List Nat) (h : ∀ b ∈ blocks, Near G (S b) (c b) (s b)) :
    Near (G * (1 + u) ^ blocks.length) (blocks.map S).sum (blocks.foldl (fun o b => A.add o (c b)) A.zero) (blocks.map s).sum := by
  have := near_foldTerms hA hG (blocks.map fun b => ⟨c b, s b, S b⟩) (fun t ht => by
    obtain ⟨b, hb, rfl⟩ := List.mem_map.mp ht
    exact h b hb) (near_start hG hA 0)
  rw [List.length_map, List.map_map, List.map_map, List.map_map, zero_add, zero_add, zero_add, List.foldl_map] at this
  exact this

end

end Implicit
