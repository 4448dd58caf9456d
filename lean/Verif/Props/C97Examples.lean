import Verif.Props.C97Float
/-!
# C97: BPR training in floating point stays in range — IEEE arithmetic, and examples
-/

namespace Implicit

open Spec

/-- IEEE single precision for the factors and double precision for the logistic function are among the arithmetics of `C97_float`. -/
theorem bpr_float_sizes : (ieee 24 (-149) : Rounding ℝ).u ≤ 1 / 16777216 ∧ (ieee 24 (-149) : Rounding ℝ).η ≤ 1 / 10 ^ 45 ∧
    (ieee 53 (-1074) : Rounding ℝ).u ≤ 1 / 16777216 ∧ (ieee 53 (-1074) : Rounding ℝ).η ≤ 1 / 10 ^ 45 := by
  obtain ⟨h1, -, h2, -⟩ := float_sizes
  refine ⟨h1, ?_, h2, ?_⟩
  · show (2 : ℝ) ^ ((-149 : Int) - 1) ≤ _
    norm_num
  · show (2 : ℝ) ^ ((-1074 : Int) - 1) ≤ _
    refine (zpow_le_zpow_right₀ (by norm_num) (by norm_num : (-1074 : Int) - 1 ≤ -150)).trans ?_
    norm_num

/-- Two users, two items, one factor, twenty epochs of two samples in single precision: all factors are finite. -/
example (σ : Unit → BprScratch (Option ℝ)) :
    let m : BprCell → Option ℝ := fun c => match c with
      | .user _ 0 => some (1 / 2)
      | .user _ _ => some 1
      | .item 0 _ => some (-1 / 4)
      | .item _ _ => some (1 / 8)
    ∃ m' x', (limitOps (ieee 24 (-149)) ((2 - 1 / 2 ^ 23) * 2 ^ 127)).bprFit 2 2 1
        (limitBprSig (ieee 24 (-149)) (ieee 53 (-1074)) ((2 - 1 / 2 ^ 23) * 2 ^ 127) ((2 - 1 / 2 ^ 52) * 2 ^ 1023) Real.exp) (some (1 / 2))
        (some (1 / 100)) (some (1 / 100)) σ (List.replicate 20 (oneThread true (bprRows true [[0], [1]]) 1 [(0, 1), (1, 0)])) m = .ok m' ∧
      HasValues 2 2 1 m' x' := by
  intro m
  obtain ⟨h1, h2, h3, h4⟩ := bpr_float_sizes
  obtain ⟨-, -, -, -, h5, h6, h7, -⟩ := float_sizes
  let x : BprCell → ℝ := fun c => match c with
    | .user _ 0 => 1 / 2
    | .user _ _ => 1
    | .item 0 _ => -1 / 4
    | .item _ _ => 1 / 8
  have hx : ∀ c, m c = some (x c) := fun c => by
    match c with
    | .user _ 0 => rfl
    | .user _ (_ + 1) => rfl
    | .item 0 _ => rfl
    | .item (_ + 1) _ => rfl
  obtain ⟨m', x', k1, k2, -⟩ := C97_float (users := 2) (items := 2) (factors := 1) (Ω' := (2 - 1 / 2 ^ 52) * 2 ^ 1023) h1 h2 h3 h4 h5 h6 h7
    (ex := Real.exp) (fun x => (Real.exp_pos x).le) (fun x _ => by linarith [Real.exp_pos x]) (lr := 1 / 100) (reg := 1 / 100) (by norm_num) (by norm_num)
    (by norm_num) (by norm_num) (by norm_num) (by norm_num) [[0], [1]] (by simp) (by
      rintro u i ⟨r, hr, hi⟩
      match u, hr with
      | 0, hr => cases hr; rw [List.mem_singleton.mp hi]; norm_num
      | 1, hr => cases hr; rw [List.mem_singleton.mp hi]; norm_num) σ
    (List.replicate 20 (oneThread true (bprRows true [[0], [1]]) 1 [(0, 1), (1, 0)])) (fun e he => by
      rw [List.eq_of_mem_replicate he]
      refine oneThread_valid _ _ _ _ ?_ ?_
      · have : (bprRows true [[0], [1]]).flatten.length = 2 := by decide +kernel
        rw [this]
        simp
      · decide +kernel) (by simp [nnz]) (some (1 / 2)) m x ⟨fun _ _ _ _ => hx _, fun _ _ _ _ => hx _⟩ (fun _ _ => rfl) (by
      refine ⟨fun u _ j hj => ?_, fun i _ j _ => ?_⟩
      · obtain rfl : j = 0 := by omega
        show |(1 / 2 : ℝ)| ≤ _
        norm_num [abs_le]
      · match i with
        | 0 =>
          show |(-1 / 4 : ℝ)| ≤ _
          norm_num [abs_le]
        | _ + 1 =>
          show |(1 / 8 : ℝ)| ≤ _
          norm_num [abs_le])
  exact ⟨m', x', k1, k2⟩

/-- Both samples of that epoch are used, none is skipped. -/
example : bprChoose true (bprRows true [[0], [1]]) 0 1 = .ok (some ⟨0, 0, 1⟩) ∧
    bprChoose true (bprRows true [[0], [1]]) 1 0 = .ok (some ⟨1, 1, 0⟩) := by
  constructor <;> rfl

/-- Outside of the range the conclusion fails: with 10 as the largest number, the difference of two items with the factors 9 and -9 is
infinite, and so is the factor of the user after one sample — whatever `sig` is. -/
example (sig : Option ℝ → Option ℝ) (s : BprScratch (Option ℝ)) :
    let r : Rounding ℝ := ⟨id, 0, 0, le_rfl, le_rfl, fun x => by simp⟩
    let m : BprCell → Option ℝ := fun c => match c with
      | .user _ _ => some 1
      | .item 0 _ => some 9
      | .item _ _ => some (-9)
    (runInstrs ((limitOps r 10).bprAct sig (some (1 / 2)) (some (1 / 100)) (some (1 / 100))) (bprUpdateProg 1 ⟨0, 0, 1⟩) s m).2 (.user 0 0) = none := by
  intro r m
  obtain ⟨h, -⟩ := float_update_effect (limitOps r 10) sig (some (1 / 2)) (some (1 / 100)) (some (1 / 100)) 1 ⟨0, 0, 1⟩ (by decide) s m
  rw [h 0 (by norm_num)]
  have hd : (limitOps r 10).sub (some 9) (some (-9)) = none := by
    show limit r 10 (9 - -9) = none
    unfold limit
    rw [if_neg]
    show ¬ |((9 : ℝ) - -9)| ≤ 10
    norm_num [abs_le]
  show (limitOps r 10).bprUser _ _ _ (some 1) (some 9) (some (-9)) = none
  unfold FloatOps.bprUser
  rw [hd]
  generalize sig _ = z
  cases z <;> rfl

end Implicit
