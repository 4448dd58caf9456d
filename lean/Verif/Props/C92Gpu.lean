import Verif.Lemmas.RoundGpuLoss
import Verif.Props.C91Gpu
import Verif.Props.C92
/-!
# C92 — the training loss the GPU reports is the loss up to rounding, whatever order the blocks finish in
-/

namespace Implicit

variable {f : Nat}

open Spec (ValidRow)

noncomputable def gpuConfidenceTerms (A : FloatOps ℝ) (row : List (Nat × ℝ)) : List Term :=
  row.map fun e => ⟨if A.lt A.zero e.2 then e.2 else -e.2, conf e.2, |e.2|⟩

noncomputable def gpuProductTerm (A : FloatOps ℝ) (Q : CgProducts f) (Y : List (Vec f ℝ)) (row : List (Nat × ℝ)) (x : Vec f ℝ) : Term :=
  ⟨Q.dot x (gpuLossVector A Q (withFactors Y row) x), dot (lossVector Y (withFactors Y row) x) x,
    (Spec.systemSize Y row 0 * Spec.length x + 2 * Spec.targetSize Y row) * Spec.length x⟩

noncomputable def gpuNormTerm (Q : CgProducts f) (x : Vec f ℝ) : Term := ⟨Q.dot x x, dot x x, Spec.length x ^ 2⟩

/-- The sums of all blocks are the sums of all rows. -/
theorem sum_gridBlocks {grid : Nat} (hg : 0 < grid) (n : Nat) {blocks : List Nat} (hb : blocks.Perm (List.range grid)) (g : Nat → ℝ) :
    (blocks.map fun b => ((gridStride grid n b).map g).sum).sum = ∑ i : Fin n, g i.1 := by
  rw [← sum_range_fin]
  have h := ((gridStride_schedule hg n hb).map g).sum_eq
  rw [← h, List.map_flatten, List.sum_flatten, List.map_map, List.map_map]
  rfl

section
variable {A : FloatOps ℝ} {Q : CgProducts f} {u : ℝ} {H : Mat f ℝ} (hA : A.Accurate u) (hQ : Q.Accurate u H)
  (hdiv : ∀ a b, |A.div a b - a / b| ≤ u * |a / b|) (r : Rounding ℝ) (hr : r.u = u) (h0 : r.η = 0)
  (C : SpRows ℝ) (X Y : List (Vec f ℝ)) (hH : ∀ a b, Near ((1 + u) ^ (Y.length + 5)) (sizeMat Y 0 a b) (H a b) (gram Y a b))
  (hC : C.length = X.length) (hv : ∀ row ∈ C, ValidRow Y.length row) {m : Nat} (hm : ∀ row ∈ C, row.length ≤ m)
  {grid : Nat} (hg : 0 < grid) {first second : List Nat} (hf : first.Perm (List.range grid)) (hs : second.Perm (List.range grid))
  {K : Nat} (hK : ∀ b < grid, ((gridStride grid X.length b).map fun i => (C[i]?.getD []).length + 1).sum ≤ K)
  (hK' : ∀ b < grid, (gridStride grid Y.length b).length ≤ K) {reg : ℝ} (hreg : 0 ≤ reg)

include hA in
theorem near_gpuConfidenceTerms (row : List (Nat × ℝ)) : ∀ t ∈ gpuConfidenceTerms A row, Near 1 t.size t.computed t.meant := by
  intro t ht
  obtain ⟨e, _, rfl⟩ := List.mem_map.mp ht
  show Near 1 |e.2| (if A.lt A.zero e.2 then e.2 else -e.2) (conf e.2)
  unfold conf
  rw [hA.zero]
  by_cases hc : 0 < e.2
  · rw [if_pos ((hA.lt _ _).mpr hc), if_pos hc]
    exact Near.self _
  · rw [if_neg (fun h => hc ((hA.lt _ _).mp h)), if_neg hc]
    have := Near.self (-e.2)
    rwa [abs_neg] at this

include hA hQ hH in
theorem near_gpuProductTerm (row : List (Nat × ℝ)) (x : Vec f ℝ) :
    Near ((1 + u) ^ (Y.length + row.length + 2 * f + 8)) (gpuProductTerm A Q Y row x).size (gpuProductTerm A Q Y row x).computed
      (gpuProductTerm A Q Y row x).meant := by
  have := near_gpuLossProduct hA hQ Y hH (withFactors Y row) x
  unfold gpuProductTerm
  rw [show (withFactors Y row).length = row.length from List.length_map _] at this
  unfold withFactors at this
  rw [targetSize_eq, traceSize_eq] at this
  exact this

include hA hC hm hg hK in
/-- A sum over the users of a block. -/
theorem near_blockUsers (T : List (Nat × ℝ) → Vec f ℝ → List Term) {G : ℝ} (hG : 1 ≤ G)
    (hT : ∀ row x, row.length ≤ m → ∀ t ∈ T row x, Near G t.size t.computed t.meant)
    (hlen : ∀ row x, (T row x).length ≤ row.length + 1) {b : Nat} (hb : b < grid) :
    Near (G * (1 + u) ^ K) ((gridStride grid X.length b).map fun i => ((userTerms X C T i).map Term.size).sum).sum
      (blockSum A (fun i => (userTerms X C T i).map Term.computed) (gridStride grid X.length b))
      ((gridStride grid X.length b).map fun i => ((userTerms X C T i).map Term.meant).sum).sum := by
  refine near_blockSum hA hG (userTerms X C T) _ (fun i hi t ht => ?_) ?_
  · have hi := ((mem_gridStride hg _ _).mp hi).1
    rw [userTerms_of_lt hi] at ht
    have hi' : i < C.length := by omega
    rw [List.getElem?_eq_getElem hi'] at ht
    exact hT _ _ (hm _ (List.getElem_mem hi')) t ht
  · exact (sum_userTerms_le C X T hlen _).trans (hK b hb)

include hA hQ hdiv hr h0 hH hC hv hm hg hf hs hK hK' hreg

theorem near_gpuSums (parts : List LossTerms)
    (hparts : parts = X.zipIdx.map fun p => gpuLossRow A Q (withFactors Y (C[p.2]?.getD [])) p.1)
    (hpos : (Spec.lossGrowth u u f Y.length m K grid - 1) * Spec.weightSize C X.length Y.length < Spec.totalConfidence C X.length Y.length) :
    |gpuLossSums A Q r grid first second (C.length * Y.length) (C.map List.length).sum parts X Y reg -
        (Spec.objective C X Y reg + negativeWeight C) / Spec.totalConfidence C X.length Y.length| ≤
      Spec.quotientError (Spec.lossGrowth u u f Y.length m K grid - 1) u (Spec.objective C X Y reg + negativeWeight C)
        (Spec.totalConfidence C X.length Y.length) (Spec.lossSize C X Y reg) (Spec.weightSize C X.length Y.length) := by
  set E := Y.length + m + 2 * f + 8 with hE
  have hG : 1 ≤ (1 + u) ^ E := one_le_growth hA.nonneg E
  have hGK : ∀ k, 1 ≤ (1 + u) ^ E * (1 + u) ^ k := fun k => by nlinarith [one_le_growth hA.nonneg k]
  have hmono : ∀ k l : Nat, k ≤ l → (1 + u) ^ E * (1 + u) ^ k ≤ (1 + u) ^ E * (1 + u) ^ l := fun k l hk =>
    mul_le_mul_of_nonneg_left (growth_mono hA.nonneg hk) (by linarith)
  have hget : ∀ i : Nat, parts[i]? = X[i]?.map fun x => gpuLossRow A Q (withFactors Y (C[i]?.getD [])) x := by
    intro i
    rw [hparts, List.getElem?_map, List.getElem?_zipIdx, Option.map_map, Nat.zero_add]
    rfl
  obtain ⟨TL, hTL⟩ : ∃ TL, TL = fun row x => gpuConfidenceTerms A row ++ [gpuProductTerm A Q Y row x] := ⟨_, rfl⟩
  obtain ⟨TC, hTC⟩ : ∃ TC, TC = fun row (_ : Vec f ℝ) => gpuConfidenceTerms A row := ⟨_, rfl⟩
  obtain ⟨TN, hTN⟩ : ∃ TN, TN = fun (_ : List (Nat × ℝ)) x => [gpuNormTerm Q x] := ⟨_, rfl⟩
  obtain ⟨TI, hTI⟩ : ∃ TI : Nat → List Term, TI = fun i => (Y[i]?.map fun y => [gpuNormTerm Q y]).getD [] := ⟨_, rfl⟩
  -- what the program adds
  have eloss : (fun i : Nat => (parts[i]?.map fun t => t.confidences ++ [t.product]).getD []) = fun i => (userTerms X C TL i).map Term.computed := by
    funext i
    rw [hget, hTL]
    unfold userTerms
    cases X[i]? with
    | none => rfl
    | some x => simp [gpuConfidenceTerms, gpuLossRow, gpuProductTerm, withFactors]
  have econf : (fun i : Nat => (parts[i]?.map LossTerms.confidences).getD []) = fun i => (userTerms X C TC i).map Term.computed := by
    funext i
    rw [hget, hTC]
    unfold userTerms
    cases X[i]? with
    | none => rfl
    | some x => simp [gpuConfidenceTerms, gpuLossRow, withFactors]
  have enorm : (fun i : Nat => (parts[i]?.map fun t => [t.norm]).getD []) = fun i => (userTerms X C TN i).map Term.computed := by
    funext i
    rw [hget, hTN]
    unfold userTerms
    cases X[i]? with
    | none => rfl
    | some x => rfl
  have eitem : (fun i : Nat => (Y[i]?.map fun y => [Q.dot y y]).getD []) = fun i => (TI i).map Term.computed := by
    funext i
    rw [hTI]
    cases hy : Y[i]? with
    | none => simp [hy]
    | some y => simp [hy, gpuNormTerm]
  -- the blocks
  have hL := fun b (hb : b < grid) => near_blockUsers hA C X hC hm hg hK TL hG (fun row x hrow t ht => by
      rw [hTL] at ht
      rcases List.mem_append.mp ht with h | h
      · exact (near_gpuConfidenceTerms hA row t h).mono hG
      · rw [List.mem_singleton.mp h]
        exact (near_gpuProductTerm hA hQ Y hH row x).mono (growth_mono hA.nonneg (by omega)))
    (fun row x => by rw [hTL]; simp [gpuConfidenceTerms]) hb
  have hQb := fun b (hb : b < grid) => near_blockUsers hA C X hC hm hg hK TC hG (fun row x hrow t ht => by
      rw [hTC] at ht
      exact (near_gpuConfidenceTerms hA row t ht).mono hG)
    (fun row x => by rw [hTC]; simp [gpuConfidenceTerms]) hb
  have hN := fun b (hb : b < grid) => near_blockUsers hA C X hC hm hg hK TN hG (fun row x hrow t ht => by
      rw [hTN] at ht
      rw [List.mem_singleton.mp ht]
      exact (near_gpuSquare hA hQ x).mono (growth_mono hA.nonneg (by omega)))
    (fun row x => by rw [hTN]; simp) hb
  have hI := fun b (hb : b < grid) => near_blockSum hA hG TI (gridStride grid Y.length b) (K := K) (fun i hi t ht => by
      have hi := ((mem_gridStride hg _ _).mp hi).1
      rw [hTI] at ht
      beta_reduce at ht
      rw [List.getElem?_eq_getElem hi] at ht
      rw [List.mem_singleton.mp ht]
      exact (near_gpuSquare hA hQ _).mono (growth_mono hA.nonneg (by omega)))
    (by
      refine le_trans ?_ (hK' b hb)
      have : ((gridStride grid Y.length b).map fun i => (TI i).length).sum ≤ ((gridStride grid Y.length b).map fun _ => 1).sum :=
        List.sum_le_sum fun i _ => by rw [hTI]; cases hy : Y[i]? <;> simp [hy]
      simpa using this)
  have hblock := fun b (hb : b < grid) => near_axpy_scaled hA hG hreg (hL b hb)
    (near_add_scaled hA hG (hI b hb) (hN b hb) (m := K + 1) le_rfl le_rfl) (m := K + 3) (by omega) (by omega)
  have hlen : first.length = grid := by rw [hf.length_eq, List.length_range]
  have hlen' : second.length = grid := by rw [hs.length_eq, List.length_range]
  have hout0 := near_blocks hA (hGK _) _ _ _ first fun b hb => hblock b (List.mem_range.mp (hf.mem_iff.mp hb))
  have hout1 := near_blocks hA (hGK _) _ _ _ second fun b hb => hQb b (List.mem_range.mp (hs.mem_iff.mp hb))
  rw [hlen, mul_assoc, ← pow_add] at hout0
  rw [hlen', mul_assoc, ← pow_add] at hout1
  rw [List.sum_map_add, List.sum_map_add, List.sum_map_mul_left, List.sum_map_mul_left, List.sum_map_add, List.sum_map_add,
    sum_gridBlocks hg _ hf, sum_gridBlocks hg _ hf, sum_gridBlocks hg _ hf, sum_gridBlocks hg _ hf, sum_gridBlocks hg _ hf, sum_gridBlocks hg _ hf] at hout0
  rw [sum_gridBlocks hg _ hs, sum_gridBlocks hg _ hs] at hout1
  unfold gpuLossSums gpuLossBlock gpuConfidenceBlock
  rw [eloss, econf, enorm, eitem]
  generalize first.foldl _ A.zero = O at *
  generalize second.foldl _ A.zero = W at *
  -- what it means to add
  have e1 : ∀ i : Fin X.length, ((userTerms X C TL i.1).map Term.size).sum = Spec.rowLossSize Y (C[i.1]?.getD []) X[i] := fun i => by
    rw [userTerms_of_lt i.2, hTL]
    show ((gpuConfidenceTerms A (C[i.1]?.getD []) ++ [gpuProductTerm A Q Y (C[i.1]?.getD []) X[i]]).map Term.size).sum = _
    rw [List.map_append, List.sum_append, gpuConfidenceTerms, List.map_map, List.map_singleton, List.sum_singleton]
    rfl
  have e2 : ∀ i : Fin X.length, ((userTerms X C TL i.1).map Term.meant).sum = ((C[i.1]?.getD []).map fun e => conf e.2).sum +
      dot (lossVector Y (withFactors Y (C[i.1]?.getD [])) X[i]) X[i] := fun i => by
    rw [userTerms_of_lt i.2, hTL]
    show ((gpuConfidenceTerms A (C[i.1]?.getD []) ++ [gpuProductTerm A Q Y (C[i.1]?.getD []) X[i]]).map Term.meant).sum = _
    rw [List.map_append, List.sum_append, gpuConfidenceTerms, List.map_map, List.map_singleton, List.sum_singleton]
    rfl
  have e3 : ∀ i : Fin X.length, ((userTerms X C TC i.1).map Term.size).sum = ((C[i.1]?.getD []).map fun e => |e.2|).sum := fun i => by
    rw [userTerms_of_lt i.2, hTC]
    show ((gpuConfidenceTerms A (C[i.1]?.getD [])).map Term.size).sum = _
    rw [gpuConfidenceTerms, List.map_map]
    rfl
  have e4 : ∀ i : Fin X.length, ((userTerms X C TC i.1).map Term.meant).sum = ((C[i.1]?.getD []).map fun e => conf e.2).sum := fun i => by
    rw [userTerms_of_lt i.2, hTC]
    show ((gpuConfidenceTerms A (C[i.1]?.getD [])).map Term.meant).sum = _
    rw [gpuConfidenceTerms, List.map_map]
    rfl
  have e5 : ∀ i : Fin X.length, ((userTerms X C TN i.1).map Term.size).sum = Spec.length X[i] ^ 2 := fun i => by
    rw [userTerms_of_lt i.2, hTN]
    simp [gpuNormTerm]
  have e6 : ∀ i : Fin X.length, ((userTerms X C TN i.1).map Term.meant).sum = dot X[i] X[i] := fun i => by
    rw [userTerms_of_lt i.2, hTN]
    simp [gpuNormTerm]
  have e7 : ∀ i : Fin Y.length, ((TI i.1).map Term.size).sum = Spec.length Y[i] ^ 2 := fun i => by
    rw [hTI]
    simp [gpuNormTerm]
  have e8 : ∀ i : Fin Y.length, ((TI i.1).map Term.meant).sum = dot Y[i] Y[i] := fun i => by
    rw [hTI]
    simp [gpuNormTerm]
  rw [Finset.sum_congr rfl fun i _ => e1 i, Finset.sum_congr rfl fun i _ => e2 i, Finset.sum_congr rfl fun i _ => e5 i,
    Finset.sum_congr rfl fun i _ => e6 i, Finset.sum_congr rfl fun i _ => e7 i, Finset.sum_congr rfl fun i _ => e8 i] at hout0
  rw [Finset.sum_congr rfl fun i _ => e3 i, Finset.sum_congr rfl fun i _ => e4 i] at hout1
  have hnum : Near (Spec.lossGrowth u u f Y.length m K grid) (Spec.lossSize C X Y reg) O (Spec.objective C X Y reg + negativeWeight C) := by
    rw [numerator_eq C X Y hC hv reg]
    unfold Spec.lossSize
    rw [sum_fin_list, sum_fin_list, sum_fin_list, sum_fin_list]
    exact hout0.mono (hmono _ _ (by omega))
  have hround : ∀ n : Nat, Near ((1 + u) ^ E * (1 + u) ^ 1) (n : ℝ) (r.rnd n) n := fun n => by
    have h1 := (Near.self (n : ℝ)).round hA.nonneg (c' := r.rnd n) (by
      have := r.err n
      rw [h0, add_zero, hr] at this
      exact this)
    rw [abs_of_nonneg (Nat.cast_nonneg n), one_mul] at h1
    refine h1.mono ?_
    rw [pow_one]
    nlinarith [hA.nonneg]
  have hden : Near (Spec.lossGrowth u u f Y.length m K grid) (Spec.weightSize C X.length Y.length)
      (A.sub (A.add W (r.rnd ((C.length * Y.length : Nat) : ℝ))) (r.rnd ((C.map List.length).sum : Nat)))
      (Spec.totalConfidence C X.length Y.length) := by
    rw [denominator_eq C X.length Y.length hC hv]
    unfold Spec.weightSize
    rw [sum_rows hC fun row : List (Nat × ℝ) => (row.map fun e : Nat × ℝ => |e.2|).sum]
    have h1 := near_add_scaled hA hG hout1 (hround (C.length * Y.length)) (m := K + grid + 2) (by omega) (by omega)
    have h2 := near_sub_scaled hA hG h1 (hround (C.map List.length).sum) (m := K + grid + 3) (by omega) (by omega)
    refine Eq.mp ?_ h2
    rw [hC]
    push_cast
    rfl
  exact quotient_near hA.nonneg hnum.2.1 hden.2.1 hnum.nonneg hden.nonneg (by linarith [hnum.1]) hpos (hdiv _ _)

end

section
variable {A : FloatOps ℝ} {u : ℝ} (hA : A.Accurate u) (hpos : 0 < f) (hmax : f ≤ 1024) (hf : f % 32 = 0)
  (hdiv : ∀ a b, |A.div a b - a / b| ≤ u * |a / b|) (r : Rounding ℝ) (hr : r.u = u) (h0 : r.η = 0)
  (C : SpRows ℝ) (X Y : List (Vec f ℝ)) (order : Fin f → Fin f → SumTree Y.length) (ho : ∀ a b, (order a b).Complete)
  (hC : C.length = X.length) (hv : ∀ row ∈ C, ValidRow Y.length row) {m : Nat} (hm : ∀ row ∈ C, row.length ≤ m)
  {grid : Nat} (hg : 0 < grid) {first second : List Nat} (hfirst : first.Perm (List.range grid)) (hsecond : second.Perm (List.range grid))
  {K : Nat} (hK : ∀ b < grid, ((gridStride grid X.length b).map fun i => (C[i]?.getD []).length + 1).sum ≤ K)
  (hK' : ∀ b < grid, (gridStride grid Y.length b).length ≤ K) {reg : ℝ} (hreg : 0 ≤ reg)

include hA hpos hmax hf hdiv hr h0 ho hC hv hm hg hfirst hsecond hK hK' hreg

/-- **C92** (GPU).  In whatever order the blocks finish: the reported loss is the dense loss plus the confidences of the stored negative
values, over the sum of all confidences, up to an error that is a multiple of the sizes of the two sums. -/
theorem C92_gpu_loss (hsmall : (Spec.lossGrowth u u f Y.length m K grid - 1) * Spec.weightSize C X.length Y.length <
      Spec.totalConfidence C X.length Y.length) :
    ∃ ℓ, roundGpuLoss A r grid first second C Y.length X Y order reg = .ok ℓ ∧
      |ℓ - (Spec.objective C X Y reg + negativeWeight C) / Spec.totalConfidence C X.length Y.length| ≤
        Spec.quotientError (Spec.lossGrowth u u f Y.length m K grid - 1) u (Spec.objective C X Y reg + negativeWeight C)
          (Spec.totalConfidence C X.length Y.length) (Spec.lossSize C X Y reg) (Spec.weightSize C X.length Y.length) := by
  have hreg0 : regularised (gram Y) 0 = gram Y := by
    funext a b
    unfold regularised
    simp
  have hH := near_gpuGram hA r hr h0 Y order ho 0
  rw [hreg0] at hH
  refine ⟨_, ?_, near_gpuSums hA (gpuCgProducts_accurate hA (blockDot_accurate hA hpos hmax hf) _) hdiv r hr h0 C X Y hH hC hv hm hg hfirst
    hsecond hK hK' hreg _ rfl hsmall⟩
  unfold roundGpuLoss
  have hparts : X.zipIdx.mapM (gpuLossPart A (gpuCgProducts A (roundBlockDot A) (gpuRegularised A (roundGram r Y order) 0)) C Y) =
      .ok (X.zipIdx.map fun p => gpuLossRow A (gpuCgProducts A (roundBlockDot A) (gpuRegularised A (roundGram r Y order) 0))
        (withFactors Y (C[p.2]?.getD [])) p.1) := by
    refine mapM_ok_of fun p hp => ?_
    have hlt : p.2 < C.length := by
      have := (List.getElem?_eq_some_iff.mp ((mem_zipIdx_iff' (p := p)).mp hp)).1
      omega
    have hvu := hv C[p.2] (List.getElem_mem hlt)
    unfold gpuLossPart
    simp only [List.getElem?_eq_getElem hlt, Option.getD_some]
    rw [rowEntries_eq hvu.lt]
    rfl
  show (X.zipIdx.mapM (gpuLossPart A (gpuCgProducts A (roundBlockDot A) (gpuRegularised A (roundGram r Y order) 0)) C Y) >>= _) = _
  rw [hparts]
  rfl

/-- **C92** (GPU, no negative values).  Then the reported loss is the dense loss, up to rounding. -/
theorem C92_gpu_dense (hnn : ∀ row ∈ C, ∀ e ∈ row, 0 ≤ e.2) (hsmall : (Spec.lossGrowth u u f Y.length m K grid - 1) *
      Spec.weightSize C X.length Y.length < Spec.totalConfidence C X.length Y.length) :
    ∃ ℓ, roundGpuLoss A r grid first second C Y.length X Y order reg = .ok ℓ ∧
      |ℓ - Spec.objective C X Y reg / Spec.totalConfidence C X.length Y.length| ≤
        Spec.quotientError (Spec.lossGrowth u u f Y.length m K grid - 1) u (Spec.objective C X Y reg)
          (Spec.totalConfidence C X.length Y.length) (Spec.lossSize C X Y reg) (Spec.weightSize C X.length Y.length) := by
  have h := C92_gpu_loss hA hpos hmax hf hdiv r hr h0 C X Y order ho hC hv hm hg hfirst hsecond hK hK' hreg hsmall
  rwa [negativeWeight_eq_zero hnn, add_zero] at h

omit ho in
/-- **C92** (GPU, reproducibility).  Two runs on the same factors, in which the blocks finish in other orders and cuBLAS adds in another
order, report losses that differ by no more than twice the error. -/
theorem C92_gpu_order (order' : Fin f → Fin f → SumTree Y.length) (ho : ∀ a b, (order a b).Complete) (ho' : ∀ a b, (order' a b).Complete)
    {first' second' : List Nat} (hfirst' : first'.Perm (List.range grid)) (hsecond' : second'.Perm (List.range grid))
    (hsmall : (Spec.lossGrowth u u f Y.length m K grid - 1) * Spec.weightSize C X.length Y.length < Spec.totalConfidence C X.length Y.length)
    {ℓ ℓ' : ℝ} (h : roundGpuLoss A r grid first second C Y.length X Y order reg = .ok ℓ)
    (h' : roundGpuLoss A r grid first' second' C Y.length X Y order' reg = .ok ℓ') :
    |ℓ - ℓ'| ≤ 2 * Spec.quotientError (Spec.lossGrowth u u f Y.length m K grid - 1) u (Spec.objective C X Y reg + negativeWeight C)
      (Spec.totalConfidence C X.length Y.length) (Spec.lossSize C X Y reg) (Spec.weightSize C X.length Y.length) := by
  obtain ⟨a, ha, hae⟩ := C92_gpu_loss hA hpos hmax hf hdiv r hr h0 C X Y order ho hC hv hm hg hfirst hsecond hK hK' hreg hsmall
  obtain ⟨b, hb, hbe⟩ := C92_gpu_loss hA hpos hmax hf hdiv r hr h0 C X Y order' ho' hC hv hm hg hfirst' hsecond' hK hK' hreg hsmall
  rw [h] at ha
  rw [h'] at hb
  injection ha with ha
  injection hb with hb
  rw [← ha] at hae
  rw [← hb, abs_sub_comm] at hbe
  have := abs_sub_le ℓ ((Spec.objective C X Y reg + negativeWeight C) / Spec.totalConfidence C X.length Y.length) ℓ'
  linarith

end

/-- The hypotheses of the theorems hold here: two blocks, the second finishes first; two users, two items. -/
example : ∃ ℓ, roundGpuLoss (f := 32) (roundOps (freeFloat 24) true) (freeFloat 24) 2 [1, 0] [0, 1] [[(0, 3)], [(1, 2), (0, 5)]] 2
      [fun _ => 1 / 3, fun _ => 1 / 7] [fun _ => 1 / 5, fun _ => -1 / 3] (fun _ _ => .add (.leaf 1) (.leaf 0)) (1 / 100) = .ok ℓ ∧
    |ℓ - Spec.objective [[(0, 3)], [(1, 2), (0, 5)]] [fun _ : Fin 32 => (1 / 3 : ℝ), fun _ => 1 / 7] [fun _ => 1 / 5, fun _ => -1 / 3] (1 / 100) /
        Spec.totalConfidence [[(0, (3 : ℝ))], [(1, 2), (0, 5)]] 2 2| ≤
      Spec.quotientError (Spec.lossGrowth (2 ^ (-24 : Int)) (2 ^ (-24 : Int)) 32 2 2 3 2 - 1) (2 ^ (-24 : Int))
        (Spec.objective [[(0, 3)], [(1, 2), (0, 5)]] [fun _ : Fin 32 => (1 / 3 : ℝ), fun _ => 1 / 7] [fun _ => 1 / 5, fun _ => -1 / 3] (1 / 100))
        (Spec.totalConfidence [[(0, (3 : ℝ))], [(1, 2), (0, 5)]] 2 2)
        (Spec.lossSize [[(0, 3)], [(1, 2), (0, 5)]] [fun _ : Fin 32 => (1 / 3 : ℝ), fun _ => 1 / 7] [fun _ => 1 / 5, fun _ => -1 / 3] (1 / 100))
        (Spec.weightSize [[(0, (3 : ℝ))], [(1, 2), (0, 5)]] 2 2) := by
  have hw : Spec.weightSize [[(0, (3 : ℝ))], [(1, 2), (0, 5)]] 2 2 = 17 := by
    unfold Spec.weightSize
    norm_num
  have htot : Spec.totalConfidence [[(0, (3 : ℝ))], [(1, 2), (0, 5)]] 2 2 = 11 := by
    have h1 : ((1 : Nat) == 0) = false := rfl
    have h2 : ((0 : Nat) == 1) = false := rfl
    simp only [Spec.totalConfidence, Spec.confidence, Fin.sum_univ_two]
    norm_num [List.lookup, h1, h2]
  exact C92_gpu_dense (A := roundOps (freeFloat 24) true) (roundOps_accurate (freeFloat 24) rfl true) (f := 32) (by norm_num) (by norm_num)
    (by norm_num)
    (fun a b => by
      have := (freeFloat (R := ℝ) 24).err (a / b)
      rw [show (freeFloat (R := ℝ) 24).η = 0 from rfl, add_zero] at this
      exact this)
    (freeFloat 24) rfl rfl [[(0, 3)], [(1, 2), (0, 5)]] [fun _ => 1 / 3, fun _ => 1 / 7] [fun _ => 1 / 5, fun _ => -1 / 3]
    (fun _ _ => .add (.leaf 1) (.leaf 0)) (fun _ _ => by unfold SumTree.Complete; decide) rfl
    (fun row h => by
      rcases List.mem_cons.mp h with rfl | h
      · exact ⟨by simp, by simp⟩
      · rw [List.mem_singleton.mp h]
        exact ⟨by simp, by simp⟩)
    (m := 2) (fun row h => by
      rcases List.mem_cons.mp h with rfl | h
      · simp
      · rw [List.mem_singleton.mp h]
        simp)
    (grid := 2) (by norm_num) (by decide) (by decide) (K := 3)
    (fun b hb => by
      have : b = 0 ∨ b = 1 := by omega
      rcases this with rfl | rfl <;> simp [gridStride])
    (fun b hb => by
      have : b = 0 ∨ b = 1 := by omega
      rcases this with rfl | rfl <;> simp [gridStride]) (reg := 1 / 100) (by norm_num)
    (fun row h e he => by
      rcases List.mem_cons.mp h with rfl | h
      · rw [List.mem_singleton.mp he]
        norm_num
      · rw [List.mem_singleton.mp h] at he
        rcases List.mem_cons.mp he with rfl | he
        · norm_num
        · rw [List.mem_singleton.mp he]
          norm_num)
    (by
      show (Spec.lossGrowth (2 ^ (-((24 : Nat) : Int)) : ℝ) (2 ^ (-((24 : Nat) : Int))) 32 2 2 3 2 - 1) *
        Spec.weightSize [[(0, (3 : ℝ))], [(1, 2), (0, 5)]] 2 2 < Spec.totalConfidence [[(0, (3 : ℝ))], [(1, 2), (0, 5)]] 2 2
      rw [hw, htot]
      unfold Spec.lossGrowth
      norm_num)

end Implicit
