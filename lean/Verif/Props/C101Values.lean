import Verif.Props.C101
import Verif.Lemmas.RoundALS
/-!
# C101: values of the initial factors
-/

namespace Implicit

theorem near_rnd {r : Rounding ℝ} (h0 : r.η = 0) {k : Nat} {M c s : ℝ} (h : Near ((1 + r.u) ^ k) M c s) :
    Near ((1 + r.u) ^ (k + 1)) M (r.rnd c) s := by
  have e := r.err c
  rw [h0, add_zero] at e
  rw [pow_succ]
  exact h.round r.u_nonneg e

theorem bprStart_near {r : Rounding ℝ} (h0 : r.η = 0) {factors : Nat} (hk : r.rnd factors = factors) (u : ℝ) :
    |roundBprStart r factors u - (u - 1 / 2) / factors| ≤ ((1 + r.u) ^ 2 - 1) * |(u - 1 / 2) / factors| := by
  unfold roundBprStart
  rw [hk]
  have h1 := near_rnd h0 (near_self (u - 1 / 2) r.u)
  have h2 := h1.mul (Near.self ((factors : ℝ)⁻¹))
  rw [mul_one, ← div_eq_mul_inv, ← div_eq_mul_inv] at h2
  have h3 := (near_rnd h0 h2).2.1
  rwa [← abs_mul, ← div_eq_mul_inv] at h3

/-- **C101** (BPR, values).  The initial factors of an item somebody interacted with and of a user with interactions are `(draw - 0.5) / factors`
up to the rounding of two operations; the others are zero, except for the column of ones of the users. -/
theorem C101_values {r : Rounding ℝ} (h0 : r.η = 0) {factors : Nat} (hk : r.rnd factors = factors) (randItem randUser : Nat → Nat → ℝ)
    (rows : List (List Nat)) :
    (∀ i j, (∃ row ∈ rows, i ∈ row) → |roundBprInit r factors randItem randUser rows (.item i j) - (randItem i j - 1 / 2) / factors| ≤
      ((1 + r.u) ^ 2 - 1) * |(randItem i j - 1 / 2) / factors|) ∧
    (∀ i j, (∀ row ∈ rows, i ∉ row) → roundBprInit r factors randItem randUser rows (.item i j) = 0) ∧
    (∀ u, roundBprInit r factors randItem randUser rows (.user u factors) = 1) ∧
    (∀ u j row, j ≠ factors → rows[u]? = some row → row ≠ [] →
      |roundBprInit r factors randItem randUser rows (.user u j) - (randUser u j - 1 / 2) / factors| ≤
        ((1 + r.u) ^ 2 - 1) * |(randUser u j - 1 / 2) / factors|) ∧
    ∀ u j, j ≠ factors → rows[u]?.getD [] = [] → roundBprInit r factors randItem randUser rows (.user u j) = 0 := by
  refine ⟨fun i j hi => ?_, fun i j hi => ?_, fun u => ?_, fun u j row hj hu hne => ?_, fun u j hj hu => ?_⟩
  · have : i ∈ rows.flatten := List.mem_flatten.mpr hi
    unfold roundBprInit roundBprItems
    dsimp only
    rw [if_neg (by rw [List.count_eq_zero]; exact not_not.mpr this)]
    exact bprStart_near h0 hk _
  · have : i ∉ rows.flatten := fun h => by
      obtain ⟨row, h1, h2⟩ := List.mem_flatten.mp h
      exact hi row h1 h2
    unfold roundBprInit roundBprItems
    dsimp only
    rw [if_pos (List.count_eq_zero.mpr this)]
  · unfold roundBprInit roundBprUsers
    dsimp only
    rw [if_pos rfl]
  · unfold roundBprInit roundBprUsers
    dsimp only
    rw [if_neg hj, hu, Option.getD_some, if_neg (by simpa using hne)]
    exact bprStart_near h0 hk _
  · unfold roundBprInit roundBprUsers
    dsimp only
    rw [if_neg hj, hu]
    rfl

theorem freeFloat_two : (freeFloat 24 : Rounding ℝ).rnd ((2 : Nat) : ℝ) = ((2 : Nat) : ℝ) := by
  show roundFree 24 ((2 : Nat) : ℝ) = _
  have h : Int.log 2 |((2 : Nat) : ℝ)| = 1 := by
    have := Int.log_zpow (R := ℝ) (b := 2) one_lt_two 1
    simpa using this
  unfold roundFree
  rw [h]
  have e : ((2 : Nat) : ℝ) / 2 ^ ((1 : Int) - (24 : Nat) + 1) = ((2 ^ 23 : Int) : ℝ) := by norm_num
  rw [e, round_intCast]
  norm_num

/-- Three items, the last one without interactions; two users, the second one without. -/
example : roundBprInit (freeFloat 24 : Rounding ℝ) 2 (fun _ _ => 1) (fun _ _ => 1 / 4) [[0, 1], []] (.item 2 0) = 0 ∧
    |roundBprInit (freeFloat 24 : Rounding ℝ) 2 (fun _ _ => 1) (fun _ _ => 1 / 4) [[0, 1], []] (.item 1 0) - 1 / 4| ≤ 1 / 1000000 ∧
    |roundBprInit (freeFloat 24 : Rounding ℝ) 2 (fun _ _ => 1) (fun _ _ => 1 / 4) [[0, 1], []] (.user 0 1) + 1 / 8| ≤ 1 / 1000000 ∧
    roundBprInit (freeFloat 24 : Rounding ℝ) 2 (fun _ _ => 1) (fun _ _ => 1 / 4) [[0, 1], []] (.user 1 2) = 1 := by
  obtain ⟨h1, h2, h3, h4, -⟩ := C101_values (r := (freeFloat 24 : Rounding ℝ)) rfl (factors := 2) freeFloat_two (fun _ _ => 1) (fun _ _ => 1 / 4)
    [[0, 1], []]
  refine ⟨h2 2 0 (by simp), ?_, ?_, h3 1⟩
  · have := h1 1 0 ⟨[0, 1], by simp, by simp⟩
    norm_num [freeFloat] at this ⊢
    exact this.trans (by norm_num)
  · have := h4 0 1 [0, 1] (by omega) rfl (by simp)
    norm_num [freeFloat] at this ⊢
    exact this.trans (by norm_num)

/-- **C101** (`RandomState.uniform`, error).  For all bounds and draws the number is `low + u * (high - low)` up to the rounding of three
operations. -/
theorem C101_uniform_error {r : Rounding ℝ} (h0 : r.η = 0) (fused : Bool) (low high u : ℝ) :
    |deviceUniform r fused low high u - (low + u * (high - low))| ≤ ((1 + r.u) ^ 3 - 1) * (|u| * (|high| + |low|) + |low|) := by
  have hu := r.u_nonneg
  have hd : Near ((1 + r.u) ^ 1) (|high| + |low|) (r.rnd (high - low)) (high - low) := by
    have h1 := (near_self high r.u).add (near_self low r.u).neg
    rw [← sub_eq_add_neg] at h1
    exact near_rnd h0 h1
  have hp : Near ((1 + r.u) ^ 1) (|u| * (|high| + |low|)) (u * r.rnd (high - low)) (u * (high - low)) := by
    have := (Near.self u).mul hd
    rwa [one_mul] at this
  have hl : ∀ k, Near ((1 + r.u) ^ k) |low| low low := fun k => (Near.self low).mono (one_le_growth hu k)
  rw [add_comm low]
  unfold deviceUniform
  split_ifs with hc hf
  · exact ((near_rnd h0 (hp.add (hl 1))).mono (growth_mono hu (show 1 + 1 ≤ 3 by omega))).2.1
  · exact (near_rnd h0 ((near_rnd h0 hp).add (hl 2))).2.1
  · push Not at hc
    obtain ⟨rfl, rfl⟩ := hc
    have : u * (1 - 0) + 0 = u := by ring
    rw [this, sub_self, abs_zero]
    have := one_le_growth hu 3
    exact mul_nonneg (by linarith) (by positivity)

/-- The plain range `[0, 1]` is returned as drawn. -/
example : deviceUniform (freeFloat 24) true 0 1 (1 / 3) = (1 / 3 : ℝ) := by
  unfold deviceUniform
  simp

end Implicit
