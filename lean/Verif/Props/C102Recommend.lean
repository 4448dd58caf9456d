import Verif.Props.C100Float
import Verif.Props.C102
/-!
# C102: from training to recommendations, and beyond the range
-/

set_option linter.unusedSectionVars false

namespace Implicit

open Spec (ValidRow)

variable {f : Nat}

/-- **C102** (recommendations).  Trained as in `C102_fit`, with the square of `B` in range: `recommend` for every user, with every filter that leaves
`k` items, has finite scores and the guarantees of C62. -/
theorem C102_recommend {r : Rounding ℝ} (h0 : r.η = 0) (fused : Bool) {Ω κ P reg T W B : ℝ} {n m : Nat}
    (hR : Spec.AlsRange r.u κ P f n m T W B reg) (hP : P ≤ Ω) {posv : Mat f (Option ℝ) → Vec f (Option ℝ) → Option (Vec f (Option ℝ))}
    {p : Mat f ℝ → Vec f ℝ → Option (Vec f ℝ)} (hp : RangeSolver κ P (reg / 2) posv p) (hΩ : (1 + r.u) ^ f * B ^ 2 < Ω)
    (order : Nat → GramOrder f) (ho : ∀ i n h a b, (order i n h a b).Complete) {cols : Nat} (C : SpRows ℝ)
    (hn0 : 0 < C.length) (hn : C.length ≤ n) (hcols0 : 0 < cols) (hcols : cols ≤ n)
    (hC : ∀ row ∈ C, ValidRow cols row ∧ row.length ≤ m ∧ (row.map fun e => |e.2| + 1).sum ≤ T ∧ Spec.liked row ≤ W)
    (hCt : ∀ col ∈ transposeRows cols C, col.length ≤ m ∧ (col.map fun e => |e.2| + 1).sum ≤ T ∧ Spec.liked col ≤ W)
    (iterations : Nat) (X₀ : List (Vec f (Option ℝ))) (hX₀ : X₀.length = C.length) (Y₀ : List (Vec f ℝ)) (hY₀ : Y₀.length = cols)
    (hB₀ : ∀ y ∈ Y₀, Spec.length y ≤ B) :
    ∃ (X : Fin C.length → Vec f ℝ) (Y : Fin cols → Vec f ℝ),
      rangeAlsFit r fused Ω posv order cols C reg (iterations + 1) ⟨X₀, Y₀.map known⟩ = .ok ⟨List.ofFn fun u => known (X u), List.ofFn fun i => known (Y i)⟩ ∧
      ∀ (u : Fin C.length) (sums : Fin cols → SumTree f) (filter : List (Fin cols)) (k : Nat), (∀ j, (sums j).Complete) → 1 ≤ k →
        k ≤ ((List.finRange cols).filter fun j => j ∉ filter).length →
        ∃ out, extRecommend r Ω sums filter k (X u) Y = .ok (out.map fun p => (.fin p.1, p.2)) ∧
          Spec.ApproxTop k (fun j => j ∉ filter) (fun i => dot (X u) (Y i)) (fun i => Spec.scoreError r.u r.η (X u) (Y i)) out := by
  obtain ⟨X, Y, e1, e2, e3, e4, e5, -⟩ := C102_fit h0 fused hR hP hp order ho C hn0 hn hcols0 hcols hC hCt iterations X₀ hX₀ Y₀ hY₀ hB₀
  refine ⟨fun u => X[u.1]'(by omega), fun i => Y[i.1]'(by omega), ?_, fun u sums filter k hs hk hmany => ?_⟩
  · rw [e1]
    congr 2
    · exact List.ext_getElem (by simp [e2]) fun i h1 h2 => by simp
    · exact List.ext_getElem (by simp [e3]) fun i h1 h2 => by simp
  · refine C100_recommend r Ω sums hs filter k hk _ _ (fun i _ => ?_) hmany
    unfold Spec.scoreRange
    rw [h0, mul_zero, add_zero]
    refine lt_of_le_of_lt ?_ hΩ
    refine mul_le_mul_of_nonneg_left ?_ (pow_nonneg (by linarith [r.u_nonneg]) _)
    have h1 := e4 _ (List.getElem_mem (show u.1 < X.length by omega))
    have h2 := e5 _ (List.getElem_mem (show i.1 < Y.length by omega))
    beta_reduce
    generalize X[u.1]'(by omega) = x at *
    generalize Y[i.1]'(by omega) = y at *
    have h3 := abs_dot_le_length (fun a => |x a|) (fun a => |y a|)
    rw [length_abs, length_abs] at h3
    have h4 : ∑ a, |x a * y a| = dot (fun a => |x a|) (fun a => |y a|) := by
      unfold dot
      exact Finset.sum_congr rfl fun a _ => abs_mul _ _
    rw [h4, sq]
    exact (le_abs_self _).trans (h3.trans (mul_le_mul h1 h2 (length_nonneg _) hR.length_nonneg))

/-! ## The assumptions can be met -/

open Classical in
/-- A solver of real systems as one of systems with overflow: an error if a number is infinite or NaN. -/
noncomputable def strictSolver (p : Mat f ℝ → Vec f ℝ → Option (Vec f ℝ)) (A : Mat f (Option ℝ)) (b : Vec f (Option ℝ)) : Option (Vec f (Option ℝ)) :=
  if (∀ a c, (A a c).isSome) ∧ ∀ a, (b a).isSome then (p (fun a c => (A a c).getD 0) (fun a => (b a).getD 0)).map known else none

theorem strictSolver_range {κ : ℝ} {p : Mat f ℝ → Vec f ℝ → Option (Vec f ℝ)} (hp : StableSolver κ p) (P lam : ℝ) :
    RangeSolver κ P lam (strictSolver p) p where
  stable := hp
  agrees A b _ _ _ := by
    unfold strictSolver
    rw [if_pos ⟨fun _ _ => rfl, fun _ => rfl⟩]
    rfl

/-- One after the other. -/
def gramChain : GramOrder f := fun n h _ _ => SumTree.chain (List.finRange n).tail (.leaf ⟨0, h⟩)

theorem chain_leaves (js : List (Fin f)) (t : SumTree f) : (SumTree.chain js t).leaves = t.leaves ++ js := by
  induction js generalizing t with
  | nil => simp [SumTree.chain]
  | cons j js ih =>
    rw [SumTree.chain, ih]
    simp [SumTree.leaves]

theorem gramChain_complete (n : Nat) (h : 0 < n) (a b : Fin f) : (gramChain n h a b).Complete := by
  unfold gramChain SumTree.Complete
  rw [chain_leaves]
  obtain ⟨k, rfl⟩ : ∃ k, n = k + 1 := ⟨n - 1, by omega⟩
  rw [List.finRange_succ]
  simp [SumTree.leaves]

theorem range_example : Spec.AlsRange ((freeFloat 24 : Rounding ℝ).u) 0 1000 1 2 2 7 3 4 1 := by
  have hu : (freeFloat 24 : Rounding ℝ).u = 1 / 2 ^ 24 := by
    unfold freeFloat
    norm_num
  rw [hu]
  constructor <;> norm_num [Spec.systemGrowth, Spec.alsSize]

theorem transpose_example : transposeRows 2 [[(0, (3 : ℝ)), (1, -2)], [(1, 1)]] = [[(0, 3)], [(0, -2), (1, 1)]] := by
  simp [transposeRows, List.range_succ]

/-- Two users, two items, one factor, single precision, ten iterations; the initial factors of the users are not even numbers. -/
example : ∃ (X Y : Fin 2 → Vec 1 ℝ) (out : List (ℝ × Nat)),
    rangeAlsFit (freeFloat 24) true (2 ^ 127) (strictSolver (triangleSolver 1)) (fun _ => gramChain) 2 [[(0, 3), (1, -2)], [(1, 1)]] 1 10
      ⟨[fun _ => none, fun _ => none], [known fun _ => 1 / 100, known fun _ => 1 / 200]⟩ =
        .ok ⟨List.ofFn fun u => known (X u), List.ofFn fun i => known (Y i)⟩ ∧
    extRecommend (freeFloat 24) (2 ^ 127) (fun _ => .leaf 0) [1] 1 (X 0) Y = .ok (out.map fun p => (.fin p.1, p.2)) ∧ out.length = 1 := by
  obtain ⟨X, Y, h1, h2⟩ := C102_recommend (r := freeFloat 24) rfl true range_example (Ω := 2 ^ 127) (by norm_num)
    (strictSolver_range (triangleSolver_stable 1) _ _) (by
      have hu : (freeFloat 24 : Rounding ℝ).u = 1 / 2 ^ 24 := by
        unfold freeFloat
        norm_num
      rw [hu]
      norm_num) (fun _ => gramChain) (fun _ => gramChain_complete) (cols := 2) [[(0, 3), (1, -2)], [(1, 1)]] (by simp) (by simp) (by simp) (by simp)
    (by
      intro row hrow
      simp only [List.mem_cons, List.not_mem_nil, or_false] at hrow
      rcases hrow with rfl | rfl
      · exact ⟨⟨by simp, by simp⟩, by simp, by norm_num, by norm_num [Spec.liked]⟩
      · exact ⟨⟨by simp, by simp⟩, by simp, by norm_num, by norm_num [Spec.liked]⟩)
    (by
      rw [transpose_example]
      intro row hrow
      simp only [List.mem_cons, List.not_mem_nil, or_false] at hrow
      rcases hrow with rfl | rfl
      · exact ⟨by simp, by norm_num, by norm_num [Spec.liked]⟩
      · exact ⟨by simp, by norm_num, by norm_num [Spec.liked]⟩) 9
    [fun _ => none, fun _ => none] (by simp) [fun _ => 1 / 100, fun _ => 1 / 200] (by simp) (by
      have hl : ∀ c : ℝ, 0 ≤ c → Spec.length (fun _ : Fin 1 => c) = c := fun c hc => by
        unfold Spec.length
        simp [Real.sqrt_sq hc]
      intro y hy
      simp only [List.mem_cons, List.not_mem_nil, or_false] at hy
      rcases hy with rfl | rfl <;> rw [hl _ (by norm_num)] <;> norm_num)
  obtain ⟨out, h3, h4⟩ := h2 ⟨0, by simp⟩ (fun _ => .leaf 0) [1] 1 (fun _ => by unfold SumTree.Complete; decide) le_rfl (by decide)
  exact ⟨X, Y, out, h1, h3, h4.length⟩

/-- Beyond the range: one item with the finite factor `2^64` and one user who likes it.  The exact optimum is less than 1, but LAPACK is given an
infinite matrix. -/
theorem C102_overflow_violated (r : Rounding ℝ) (hr : r.u ≤ 1 / 4) (h0 : r.η = 0) (fused : Bool)
    (posv : Mat 1 (Option ℝ) → Vec 1 (Option ℝ) → Option (Vec 1 (Option ℝ))) :
    (∃ b, rangeLeastSquaresRow r fused (2 ^ 127) posv gramChain [known fun _ => 2 ^ 64] 1 [(0, 1)] =
      match posv (fun _ _ => none) b with
      | some x => .ok x
      | none => .error .valueError) ∧
    ∃ z : Vec 1 ℝ, Spec.NormalEquations [fun _ => 2 ^ 64] [(0, 1)] 1 z ∧ 0 < z 0 ∧ z 0 < 1 := by
  constructor
  · have hlim : limit r (2 ^ 127) (2 ^ 64 * 2 ^ 64) = none := by
      unfold limit
      have e : (2 : ℝ) ^ 64 * 2 ^ 64 = 2 * 2 ^ 127 := by norm_num
      have hp : (0 : ℝ) < 2 ^ 127 := by positivity
      rw [e]
      generalize (2 : ℝ) ^ 127 = z at *
      rw [if_neg]
      have a := abs_le.mp (r.err (2 * z))
      rw [h0, abs_of_pos (by linarith)] at a
      have : r.u * (2 * z) ≤ 1 / 4 * (2 * z) := mul_le_mul_of_nonneg_right hr (by linarith)
      rw [not_le]
      exact lt_of_lt_of_le (by linarith [a.1]) (le_abs_self _)
    have hgram : rangeGram r (2 ^ 127) gramChain [known fun _ : Fin 1 => (2 : ℝ) ^ 64] = fun _ _ => none := by
      funext a b
      unfold rangeGram
      rw [dif_pos (by simp)]
      simp only [gramChain, List.length_singleton, List.finRange_succ, List.tail_cons]
      simp [SumTree.chain, SumTree.rangeEval, known, hlim]
    have hregd : (rangeOps r fused (2 ^ 127)).regularised (fun _ _ : Fin 1 => none) (some 1) = fun _ _ => none := by
      funext a b
      unfold FloatOps.regularised
      rfl
    have hax : ∀ t y, (rangeOps r fused (2 ^ 127)).axpy t y none = none := by
      intro t y
      cases fused <;> rfl
    unfold rangeLeastSquaresRow FloatOps.leastSquaresRow
    rw [hgram, hregd]
    simp only [List.map_cons, List.map_nil, List.isEmpty_cons, Bool.false_eq_true, if_false, rowEntries, List.getElem?_cons_zero, bind, Except.bind,
      pure, Except.pure, List.foldl_cons, List.foldl_nil]
    refine ⟨((rangeOps r fused (2 ^ 127)).accumulate (fun _ _ => none, fun _ => (rangeOps r fused (2 ^ 127)).zero)
      (known fun _ => 2 ^ 64, some 1)).2, ?_⟩
    have hm : ((rangeOps r fused (2 ^ 127)).accumulate (fun _ _ => none, fun _ => (rangeOps r fused (2 ^ 127)).zero)
      (known fun _ : Fin 1 => (2 : ℝ) ^ 64, some 1)).1 = fun _ _ => none := by
      unfold FloatOps.accumulate
      split_ifs <;> (funext a b; exact hax _ _)
    rw [hm]
    cases posv _ _ <;> rfl
  · refine ⟨fun _ => 2 ^ 64 / (2 ^ 128 + 1), ?_, by positivity, ?_⟩
    · intro a
      simp [Spec.confidence, Spec.preference]
      norm_num
    · norm_num

end Implicit
