import Verif.Props.C98Explain
/-!
# C98 — the claims
-/

set_option linter.unusedSectionVars false

namespace Implicit

open Spec (ValidRow)

variable {f : Nat}

section
variable {Y : List (Vec f ℝ)} {row : List (Nat × ℝ)} {reg : ℝ}

theorem total_of_weighted {w z y : Vec f ℝ} (hw : Spec.IsWeighted Y row reg y w) (hz : Spec.NormalEquations Y row reg z)
    (hrow : ValidRow Y.length row) : ((Spec.contributions Y row w).map Prod.fst).sum = dot y z := by
  rw [contributions_sum w Y row (gram Y) reg, ← (normalEquations_iff Y row hrow reg z).mp hz,
    dot_mulVec_symm (linearEquation_symm (gram_symm Y) reg _), (isWeighted_iff Y row hrow reg y w).mp hw, dot_comm]

theorem gain_nonneg' (c : ℝ) : 0 ≤ gain c := by
  unfold gain
  split_ifs with h
  · exact h.le
  · exact le_rfl

theorem contributions_near (w w' : Vec f ℝ) :
    |((Spec.contributions Y row w).map Prod.fst).sum - ((Spec.contributions Y row w').map Prod.fst).sum| ≤
      Spec.length (w - w') * Spec.targetSize Y row := by
  rw [contributions_sum w Y row (gram Y) 0, contributions_sum w' Y row (gram Y) 0, ← dot_sub_left]
  refine (abs_dot_le_length _ _).trans (mul_le_mul_of_nonneg_left ?_ (length_nonneg _))
  rw [← targetSize_eq]
  generalize row.map (fun e => ((Y[e.1]?.getD 0 : Vec f ℝ), e.2)) = es
  have h1 : (linearEquation (gram Y) 0 es).2 = fun a => (es.map fun e => gain e.2 * e.1 a).sum := funext (linearEquation_snd (gram Y) 0 es)
  rw [h1]
  refine (length_list_sum_le es fun e a => gain e.2 * e.1 a).trans (le_of_eq ?_)
  congr 1
  exact List.map_congr_left fun e _ => by rw [length_smul, abs_of_nonneg (gain_nonneg' _)]

theorem targetSize_nonneg' : 0 ≤ Spec.targetSize Y row := by
  unfold Spec.targetSize
  refine List.sum_nonneg fun x hx => ?_
  obtain ⟨e, -, rfl⟩ := List.mem_map.mp hx
  exact mul_nonneg (gain_nonneg' e.2) (length_nonneg _)

end

/-- Rounding and the error of the solution together. -/
theorem combine_error {c s t G W δ ρ reg L X : ℝ} (hX : 0 ≤ X) (hG : 0 ≤ G) (hρ : 0 ≤ ρ) (hreg : 0 < reg) (h1 : |c - s| ≤ G * (W * X))
    (h2 : |s - t| ≤ δ * X) (hδ : δ ≤ ρ * W / reg) (hW : W ≤ L) : |c - t| ≤ (G + ρ / reg) * L * X := by
  have h3 := abs_sub_le c s t
  have h4 := mul_le_mul_of_nonneg_right hδ hX
  have h5 : G * (W * X) + ρ * W / reg * X = (G + ρ / reg) * W * X := by ring
  have h6 := mul_le_mul_of_nonneg_right (mul_le_mul_of_nonneg_left hW (add_nonneg hG (div_nonneg hρ hreg.le))) hX
  linarith

section
variable {A D : FloatOps ℝ} {u v : ℝ} (hA : A.Accurate u) (hD : D.Accurate v) (huv : v ≤ u) (r d : Rounding ℝ) (hr : r.u = u)
  (h0 : r.η = 0) (hd : d.u = v) (hd0 : d.η = 0) {κ : ℝ} {chol : Mat f ℝ → Vec f ℝ → Option (Vec f ℝ)} (hp : StableSolver κ chol)
  (H : HeapImpl (ℝ × Nat) pairLt) (Y : List (Vec f ℝ)) (order : Fin f → Fin f → SumTree Y.length) (ho : ∀ a b, (order a b).Complete)
  (sums : Nat → SumTree f) (hs : ∀ i, (sums i).Complete) {reg : ℝ} (hreg : 0 < reg) (row : List (Nat × ℝ))
  (hrow : ValidRow Y.length row) (hsmall : Spec.explainNoise u κ Y row reg < reg)

include hA hp hreg

theorem explainNoise_nonneg : 0 ≤ Spec.explainNoise u κ Y row reg := by
  unfold Spec.explainNoise
  have hg : 0 ≤ Spec.systemGrowth u Y.length row.length := by
    unfold Spec.systemGrowth
    linarith [one_le_growth hA.nonneg (Y.length + row.length + 5)]
  refine mul_nonneg (by have := mul_nonneg hp.nonneg (by linarith : 0 ≤ 1 + Spec.systemGrowth u Y.length row.length); linarith) ?_
  unfold Spec.systemSize
  have h1 : 0 ≤ (Y.map fun y => Spec.length y ^ 2).sum := List.sum_nonneg fun x hx => by
    obtain ⟨e, -, rfl⟩ := List.mem_map.mp hx
    exact sq_nonneg _
  have h2 : 0 ≤ (row.map fun e => (|e.2| + 1) * Spec.length (Y[e.1]?.getD 0) ^ 2).sum := List.sum_nonneg fun x hx => by
    obtain ⟨e, -, rfl⟩ := List.mem_map.mp hx
    exact mul_nonneg (by have := abs_nonneg e.2; linarith) (sq_nonneg _)
  have h3 : 0 ≤ reg * f := mul_nonneg hreg.le (Nat.cast_nonneg f)
  linarith

include hD huv hr h0 hd hd0 ho hs hrow hsmall

/-- **C98**.  `explain` raises no error; its total is the score of the item for the exact user factor `z` up to the stated error; and it
lists the largest exact contributions, up to the stated error. -/
theorem C98_explain (itemid : Nat) (y : Vec f ℝ) (hy : Y[itemid]? = some y) (N : Nat) :
    ∃ ex w z, roundExplain A D H r d chol Y order sums reg row itemid none N = .ok ex ∧
      Spec.IsWeighted Y row reg y w ∧ Spec.NormalEquations Y row reg z ∧
      |ex.total - dot y z| ≤ Spec.explainError u v κ Y row reg y (1 + row.length) * Spec.targetSize Y row ∧
      Spec.ExplainsWithin Y row w (Spec.explainError u v κ Y row reg y 1) N ex.contributions := by
  have hpd := linearEquation_posDef Y row hrow.nodup hrow.lt hreg
  obtain ⟨w, hw⟩ := posDef_solvable hpd y
  obtain ⟨z, hz⟩ := posDef_solvable hpd (linearEquation (gram Y) reg (row.map fun e => (Y[e.1]?.getD 0, e.2))).2
  have hw' := (isWeighted_iff Y row hrow reg y w).mpr hw
  have hz' := (normalEquations_iff Y row hrow reg z).mpr hz
  obtain ⟨x, hx1, hx2, hx3⟩ := roundExplain_eq hA hD huv r d hr h0 hp H Y order ho sums hreg row hrow hsmall itemid y hy
  have hρ := explainNoise_nonneg hA hp Y hreg row
  have hcon : ∀ e ∈ row, 0 ≤ e.2 → |D.mul ((sums e.1).eval d x (Y[e.1]?.getD 0)) e.2 - e.2 * dot w (Y[e.1]?.getD 0)| ≤
      Spec.explainError u v κ Y row reg y 1 * (e.2 * Spec.length (Y[e.1]?.getD 0)) := by
    intro e _ he
    refine combine_error (mul_nonneg he (length_nonneg _)) (by linarith [one_le_growth hD.nonneg (f + 1)]) hρ hreg
      (near_contribution hD d hd hd0 (hs e.1) x (Y[e.1]?.getD 0) he).2.1 ?_ (hx2 w hw') hx1
    rw [mul_comm e.2 (dot w _), ← sub_mul, ← dot_sub_left, abs_mul, abs_of_nonneg he]
    have := mul_le_mul_of_nonneg_right (abs_dot_le_length (x - w) (Y[e.1]?.getD 0)) he
    linarith
  refine ⟨_, w, z, hx3 none N (.inl rfl), hw', hz', ?_, ?_⟩
  · rw [← total_of_weighted hw' hz' hrow]
    have h1 := near_explainTotal hD d hd hd0 hs x Y row
    rw [show f + 1 + row.length = f + (1 + row.length) by omega] at h1
    exact combine_error targetSize_nonneg' (by linarith [one_le_growth hD.nonneg (f + (1 + row.length))]) hρ hreg h1
      (contributions_near x w) (hx2 w hw') hx1
  · have htop := keepLargest_isTopK H N (computedContributions D d sums x Y row)
    dsimp only
    rw [← List.map_reverse]
    obtain ⟨out, hout⟩ : ∃ out, out = (drainHeap H ((computedContributions D d sums x Y row).foldl (keepLargest H N) []).length
      ((computedContributions D d sums x Y row).foldl (keepLargest H N) [])).reverse := ⟨_, rfl⟩
    rw [← hout] at htop ⊢
    obtain ⟨hlen, ⟨rest, hperm, hbest⟩, hsort⟩ := htop
    have hmem : ∀ c, c ∈ computedContributions D d sums x Y row ↔ ∃ e ∈ row, 0 ≤ e.2 ∧
        (D.mul ((sums e.1).eval d x (Y[e.1]?.getD 0)) e.2, e.1) = c := by
      intro c
      unfold computedContributions
      simp only [List.mem_map, List.mem_filter, decide_eq_true_eq, and_assoc]
    have hnd : ((computedContributions D d sums x Y row).map Prod.snd).Nodup := by
      unfold computedContributions
      rw [List.map_map]
      exact hrow.nodup.sublist (List.filter_sublist.map Prod.fst)
    refine ⟨?_, ?_, ?_, ?_, ?_⟩
    · rw [List.length_map, hlen]
      unfold computedContributions
      rw [List.length_map]
    · rw [List.map_map]
      have := (hperm.map Prod.snd).nodup_iff.mp hnd
      rw [List.map_append] at this
      exact (List.nodup_append.mp this).1
    · intro p hp
      obtain ⟨c, hc, rfl⟩ := List.mem_map.mp hp
      obtain ⟨e, he, h0, rfl⟩ := (hmem c).mp (hperm.mem_iff.mpr (List.mem_append_left _ hc))
      exact ⟨e.2, he, h0, hcon e he h0⟩
    · intro e he h0 hnot p hp
      obtain ⟨c, hc, rfl⟩ := List.mem_map.mp hp
      have hin := hperm.mem_iff.mp ((hmem _).mpr ⟨e, he, h0, rfl⟩)
      rcases List.mem_append.mp hin with hin | hin
      · exact absurd (List.mem_map.mpr ⟨(e.1, D.mul ((sums e.1).eval d x (Y[e.1]?.getD 0)) e.2), List.mem_map.mpr ⟨_, hin, rfl⟩, rfl⟩) hnot
      · have h1 := hbest c hc _ hin
        have h2 := (abs_le.mp (hcon e he h0)).1
        dsimp only at h1 ⊢
        show e.2 * dot w _ ≤ _
        linarith
    · refine List.pairwise_map.mpr (hsort.imp fun {a b} h => ?_)
      rcases h with rfl | h | ⟨h, -⟩
      · exact le_rfl
      · exact h.le
      · exact h.ge

/-- **C98** (weights).  Passing the weights of an earlier answer gives the same explanation as computing them again. -/
theorem C98_weights (itemid itemid' : Nat) (hi : itemid < Y.length) (hi' : itemid' < Y.length) (N N' : Nat) (ex : Explanation f ℝ)
    (hex : roundExplain A D H r d chol Y order sums reg row itemid none N = .ok ex) :
    roundExplain A D H r d chol Y order sums reg row itemid' (some ex.weights) N' =
      roundExplain A D H r d chol Y order sums reg row itemid' none N' := by
  obtain ⟨w, _, _, h1⟩ := roundExplain_eq hA hD huv r d hr h0 hp H Y order ho sums hreg row hrow hsmall itemid _
    (List.getElem?_eq_getElem hi)
  obtain ⟨w', _, _, h2⟩ := roundExplain_eq hA hD huv r d hr h0 hp H Y order ho sums hreg row hrow hsmall itemid' _
    (List.getElem?_eq_getElem hi')
  rw [h1 none N (.inl rfl)] at hex
  cases hex
  rw [h2 _ N' (.inr rfl), h2 none N' (.inl rfl)]

/-- **C98** (all listed).  If every contribution is listed, the total is their sum up to the rounding of the additions. -/
theorem C98_all_listed (itemid : Nat) (hi : itemid < Y.length) (N : Nat) (hN : (row.filter fun e => 0 ≤ e.2).length ≤ N)
    (ex : Explanation f ℝ) (hex : roundExplain A D H r d chol Y order sums reg row itemid none N = .ok ex) :
    |ex.total - (ex.contributions.map Prod.snd).sum| ≤
      ((1 + v) ^ row.length - 1) * (ex.contributions.map fun c => |c.2|).sum := by
  obtain ⟨w, _, _, h1⟩ := roundExplain_eq hA hD huv r d hr h0 hp H Y order ho sums hreg row hrow hsmall itemid _
    (List.getElem?_eq_getElem hi)
  rw [h1 none N (.inl rfl)] at hex
  cases hex
  have htop := keepLargest_isTopK H N (computedContributions D d sums w Y row)
  dsimp only
  rw [← List.map_reverse]
  obtain ⟨out, hout⟩ : ∃ out, out = (drainHeap H ((computedContributions D d sums w Y row).foldl (keepLargest H N) []).length
    ((computedContributions D d sums w Y row).foldl (keepLargest H N) [])).reverse := ⟨_, rfl⟩
  rw [← hout] at htop ⊢
  obtain ⟨hlen, ⟨rest, hperm, -⟩, -⟩ := htop
  have hcl : (computedContributions D d sums w Y row).length = (row.filter fun e => 0 ≤ e.2).length := by
    unfold computedContributions
    rw [List.length_map]
  have hrest : rest = [] := by
    have := hperm.length_eq
    rw [List.length_append, hlen, hcl, min_eq_right hN] at this
    exact List.length_eq_zero_iff.mp (by omega)
  rw [hrest, List.append_nil] at hperm
  rw [List.map_map, List.map_map]
  have e1 : (out.map (Prod.snd ∘ fun c => (c.2, c.1))).sum = ((computedContributions D d sums w Y row).map Prod.fst).sum :=
    ((hperm.map Prod.fst).sum_eq).symm
  have e2 : (out.map ((fun c : Nat × ℝ => |c.2|) ∘ fun c => (c.2, c.1))).sum =
      ((computedContributions D d sums w Y row).map fun c => |c.1|).sum := ((hperm.map fun c : ℝ × Nat => |c.1|).sum_eq).symm
  rw [e1, e2]
  have hz : Near ((1 + v) ^ 0) 0 D.zero 0 := by
    rw [hD.zero, pow_zero]
    exact ⟨le_rfl, by simp, by simp⟩
  have h := near_total hD (computedContributions D d sums w Y row) (fun c => |c.1|) Prod.fst Prod.fst (fun c _ => near_self c.1 v) le_rfl hz
  rw [zero_add, zero_add, zero_add, hcl] at h
  exact (h.mono (growth_mono hD.nonneg (List.length_filter_le _ _))).2.1

/-- **C98** (recommend).  The total and the score that `recommend` gives the item with `recalculate_user=True` differ by at most the
errors of the two: `x` is the recalculated factor, the score is summed in any order. -/
theorem C98_recommend (itemid : Nat) (y : Vec f ℝ) (hy : Y[itemid]? = some y) (N : Nat) (ex : Explanation f ℝ)
    (hex : roundExplain A D H r d chol Y order sums reg row itemid none N = .ok ex) {κ' : ℝ}
    {posv : Mat f ℝ → Vec f ℝ → Option (Vec f ℝ)} (hpv : StableSolver κ' posv) (order' : Fin f → Fin f → SumTree Y.length)
    (ho' : ∀ a b, (order' a b).Complete) {x : Vec f ℝ} (hx : roundLeastSquaresRow A r posv Y order' reg row = .ok x) (t : SumTree f)
    (ht : t.Complete) :
    |ex.total - t.eval r x y| ≤ Spec.explainError u v κ Y row reg y (1 + row.length) * Spec.targetSize Y row +
      Spec.length y * (Spec.rowResidual u κ' Y row reg x / reg) + ((1 + u) ^ f - 1) * (Spec.length x * Spec.length y) := by
  obtain ⟨ex', w, z, hex', -, hz, htot, -⟩ := C98_explain hA hD huv r d hr h0 hd hd0 hp H Y order ho sums hs hreg row hrow hsmall itemid y hy N
  rw [hex] at hex'
  cases hex'
  have h1 := C90_factor hA r hr h0 hpv Y order' ho' hreg row hrow hx hz
  have h2 := (near_tree r h0 ht x y).2.1
  rw [hr] at h2
  have h3 := (abs_dot_le_length y (x - z)).trans (mul_le_mul_of_nonneg_left h1 (length_nonneg y))
  rw [dot_sub_right, dot_comm y x] at h3
  have h4 : ex.total - t.eval r x y = (ex.total - dot y z) + -(dot x y - dot y z) + -(t.eval r x y - dot x y) := by ring
  rw [h4]
  refine (abs_add_le _ _).trans (add_le_add ((abs_add_le _ _).trans (add_le_add htot ?_)) ?_)
  · rwa [abs_neg]
  · rwa [abs_neg]

end

end Implicit
