import Verif.Lemmas.Growth
import Verif.Props.C102Recommend
/-!
# C102 with the default parameters in double precision
-/

namespace Implicit

open Spec (ValidRow)

variable {f : Nat}

theorem growth_double {u : ℝ} (hu : 0 ≤ u) (hu' : u ≤ 1 / 2 ^ 53) {n m : Nat} (hn : n ≤ 8000) (hm : m ≤ 8000) :
    0 ≤ Spec.systemGrowth u n m ∧ Spec.systemGrowth u n m ≤ 4 / 10 ^ 12 := by
  unfold Spec.systemGrowth
  have hk : ((n + m + 5 : Nat) : ℝ) ≤ 16005 := by exact_mod_cast (by omega : n + m + 5 ≤ 16005)
  have hk0 : (0 : ℝ) ≤ ((n + m + 5 : Nat) : ℝ) := Nat.cast_nonneg _
  have h1 : ((n + m + 5 : Nat) : ℝ) * u ≤ 16005 * (1 / 2 ^ 53) := mul_le_mul hk hu' hu (by norm_num)
  have h2 := pow_growth hu (n + m + 5) (h1.trans (by norm_num))
  have h3 : (1 : ℝ) ≤ (1 + u) ^ (n + m + 5) := one_le_pow₀ (by linarith)
  have h4 : (2 : ℝ) * (16005 * (1 / 2 ^ 53)) ≤ 4 / 10 ^ 12 := by norm_num
  exact ⟨by linarith, by linarith⟩

/-- Double precision, the default `regularization=0.01`, up to 200 factors, up to 8000 users and items: factors of length 200 are long enough
for rows whose positive values sum to at most 100. -/
theorem range_double {u κ : ℝ} (hu : 0 ≤ u) (hu' : u ≤ 1 / 2 ^ 53) (hκ : 0 ≤ κ) (hκ' : κ ≤ 2 / 10 ^ 12) {n m : Nat} (hf : f ≤ 200) (hn : n ≤ 8000)
    (hm : m ≤ 8000) : Spec.AlsRange u κ (10 ^ 9) f n m 2000 100 200 (1 / 100) := by
  obtain ⟨hg0, hg⟩ := growth_double hu hu' hn hm
  have hf' : (f : ℝ) ≤ 200 := by exact_mod_cast hf
  have hn' : (n : ℝ) ≤ 8000 := by exact_mod_cast hn
  have hf0 : (0 : ℝ) ≤ f := Nat.cast_nonneg _
  have hn0 : (0 : ℝ) ≤ n := Nat.cast_nonneg _
  have hS : Spec.alsSize f n 2000 200 (1 / 100) ≤ 400000002 := by
    unfold Spec.alsSize
    linarith
  have hS0 : 0 ≤ Spec.alsSize f n 2000 200 (1 / 100) := by
    unfold Spec.alsSize
    linarith
  have hκg : κ * (1 + Spec.systemGrowth u n m) ≤ 2 / 10 ^ 12 * (1 + 4 / 10 ^ 12) := mul_le_mul hκ' (by linarith) (by linarith) (by norm_num)
  have hκ0 : 0 ≤ κ * (1 + Spec.systemGrowth u n m) := mul_nonneg hκ (by linarith)
  refine ⟨by norm_num, by norm_num, by norm_num, by linarith, ?_, ?_⟩
  · have h := mul_le_mul (add_le_add hg hκg) hS hS0 (by norm_num)
    exact h.trans (by norm_num)
  · have h : (1 + Spec.systemGrowth u n m) * (Spec.alsSize f n 2000 200 (1 / 100) + 2000 * (1 + 200)) ≤
        (1 + 4 / 10 ^ 12) * (400000002 + 2000 * (1 + 200)) := mul_le_mul (by linarith) (by linarith) (by linarith) (by norm_num)
    exact h.trans (by norm_num)

/-- **C102** (default parameters in double precision).  Up to 200 factors, up to 8000 users and items, `regularization=0.01`; every row and column has
positive values with sum at most 100 and `|c| + 1` with sum at most 2000.  Initial item factors of length at most 200, arbitrary initial user factors,
and a solver with backward error `2e-12` on matrices up to `1e9`.  Then every number of iterations succeeds, and `recommend` has finite scores and
the guarantees of C62 for every user, filter and `k`. -/
theorem C102_double {r : Rounding ℝ} (h0 : r.η = 0) (hu : r.u ≤ 1 / 2 ^ 53) (fused : Bool) {κ : ℝ} (hκ : 0 ≤ κ) (hκ' : κ ≤ 2 / 10 ^ 12) (hf : f ≤ 200)
    {posv : Mat f (Option ℝ) → Vec f (Option ℝ) → Option (Vec f (Option ℝ))} {p : Mat f ℝ → Vec f ℝ → Option (Vec f ℝ)}
    (hp : RangeSolver κ (10 ^ 9) (1 / 200) posv p) (order : Nat → GramOrder f) (ho : ∀ i n h a b, (order i n h a b).Complete) {cols : Nat}
    (C : SpRows ℝ) (hn0 : 0 < C.length) (hn : C.length ≤ 8000) (hcols0 : 0 < cols) (hcols : cols ≤ 8000)
    (hC : ∀ row ∈ C, ValidRow cols row ∧ (row.map fun e => |e.2| + 1).sum ≤ 2000 ∧ Spec.liked row ≤ 100)
    (hCt : ∀ col ∈ transposeRows cols C, (col.map fun e => |e.2| + 1).sum ≤ 2000 ∧ Spec.liked col ≤ 100)
    (iterations : Nat) (X₀ : List (Vec f (Option ℝ))) (hX₀ : X₀.length = C.length) (Y₀ : List (Vec f ℝ)) (hY₀ : Y₀.length = cols)
    (hB₀ : ∀ y ∈ Y₀, Spec.length y ≤ 200) :
    ∃ (X : Fin C.length → Vec f ℝ) (Y : Fin cols → Vec f ℝ),
      rangeAlsFit r fused (2 ^ 1023) posv order cols C (1 / 100) (iterations + 1) ⟨X₀, Y₀.map known⟩ =
        .ok ⟨List.ofFn fun u => known (X u), List.ofFn fun i => known (Y i)⟩ ∧
      ∀ (u : Fin C.length) (sums : Fin cols → SumTree f) (filter : List (Fin cols)) (k : Nat), (∀ j, (sums j).Complete) → 1 ≤ k →
        k ≤ ((List.finRange cols).filter fun j => j ∉ filter).length →
        ∃ out, extRecommend r (2 ^ 1023) sums filter k (X u) Y = .ok (out.map fun p => (.fin p.1, p.2)) ∧
          Spec.ApproxTop k (fun j => j ∉ filter) (fun i => dot (X u) (Y i)) (fun i => Spec.scoreError r.u r.η (X u) (Y i)) out := by
  have hlen : ∀ row : List (Nat × ℝ), (row.map fun e => |e.2| + 1).sum ≤ 2000 → row.length ≤ 8000 := by
    intro row h
    have h1 : (row.length : ℝ) ≤ (row.map fun e => |e.2| + 1).sum := by
      clear h
      induction row with
      | nil => simp
      | cons e row ih =>
        simp only [List.length_cons, Nat.cast_add, Nat.cast_one, List.map_cons, List.sum_cons]
        have := abs_nonneg e.2
        linarith
    exact_mod_cast (h1.trans h).trans (by norm_num : (2000 : ℝ) ≤ 8000)
  have hR : Spec.AlsRange r.u κ (10 ^ 9) f 8000 8000 2000 100 200 (1 / 100) := range_double r.u_nonneg hu hκ hκ' hf le_rfl le_rfl
  have big : (2 : ℝ) ^ 60 ≤ 2 ^ 1023 := pow_le_pow_right₀ (by norm_num) (by norm_num)
  have half : (1 / 100 : ℝ) / 2 = 1 / 200 := by norm_num
  refine C102_recommend (p := p) h0 fused hR (le_trans (by norm_num) big) (half.symm ▸ hp) ?_ order ho C hn0 hn hcols0 hcols
    (fun row hrow => ⟨(hC row hrow).1, hlen row (hC row hrow).2.1, (hC row hrow).2.1, (hC row hrow).2.2⟩)
    (fun col hcol => ⟨hlen col (hCt col hcol).1, (hCt col hcol).1, (hCt col hcol).2⟩) iterations X₀ hX₀ Y₀ hY₀ hB₀
  have h1 : (1 + r.u) ^ f ≤ 2 := by
    have hf' : (f : ℝ) ≤ 200 := by exact_mod_cast hf
    have h1 : (f : ℝ) * r.u ≤ 200 * (1 / 2 ^ 53) := mul_le_mul hf' hu r.u_nonneg (by norm_num)
    have h2 := pow_growth r.u_nonneg f (h1.trans (by norm_num))
    have h3 : (2 : ℝ) * (200 * (1 / 2 ^ 53)) ≤ 1 := by norm_num
    linarith
  have h2 : (2 : ℝ) * 200 ^ 2 < 2 ^ 1023 := lt_of_lt_of_le (by norm_num) big
  exact lt_of_le_of_lt (mul_le_mul_of_nonneg_right h1 (by norm_num)) h2

/-- The data of `C102Recommend` with the default regularization. -/
example := C102_double (r := freeFloat 53) rfl (by unfold freeFloat; norm_num) false (κ := 0) le_rfl (by norm_num) (f := 1) (by norm_num)
  (strictSolver_range (triangleSolver_stable 1) _ _) (fun _ => gramChain) (fun _ => gramChain_complete) (cols := 2) [[(0, 3), (1, -2)], [(1, 1)]]
  (by simp) (by simp) (by simp) (by simp)
  (by
    intro row hrow
    simp only [List.mem_cons, List.not_mem_nil, or_false] at hrow
    rcases hrow with rfl | rfl
    · exact ⟨⟨by simp, by simp⟩, by norm_num, by norm_num [Spec.liked]⟩
    · exact ⟨⟨by simp, by simp⟩, by norm_num, by norm_num [Spec.liked]⟩)
  (by
    rw [transpose_example]
    intro row hrow
    simp only [List.mem_cons, List.not_mem_nil, or_false] at hrow
    rcases hrow with rfl | rfl
    · exact ⟨by norm_num, by norm_num [Spec.liked]⟩
    · exact ⟨by norm_num, by norm_num [Spec.liked]⟩) 14
  [fun _ => none, fun _ => none] (by simp) [fun _ => 0, fun _ => 0] (by simp) (by
    intro y hy
    simp only [List.mem_cons, List.not_mem_nil, or_false] at hy
    rcases hy with rfl | rfl <;> norm_num [Spec.length])

end Implicit
