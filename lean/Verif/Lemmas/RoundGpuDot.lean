import Verif.Model.RoundGpuDot
import Verif.Lemmas.GpuDot
import Verif.Lemmas.RoundALS
/-!
# Errors of the dot product of a thread block

Rounding errors go through the same rounds as the sums: the error bound of lane `l` is what the rounds compute from the error bounds.
-/

namespace Implicit

variable {f : Nat} {A : FloatOps ℝ} {u : ℝ}

/-- Rounds of a full warp without rounding. -/
noncomputable def plainShfl (v : Fin 32 → ℝ) (off : Nat) : Fin 32 → ℝ := shflRound (fun _ _ => 0) 32 v off

theorem plainShfl_eq (v : Fin 32 → ℝ) (off : Nat) (l : Fin 32) :
    plainShfl v off l = v l + if h : l.val + off < 32 then v ⟨l.val + off, h⟩ else v l := by
  unfold plainShfl shflRound shflDown
  congr 1
  split_ifs <;> rfl

theorem near_shfl (hA : A.Accurate u) {k : Nat} {M c s : Fin 32 → ℝ} (h : ∀ l, Near ((1 + u) ^ k) (M l) (c l) (s l)) (off : Nat) (l : Fin 32) :
    Near ((1 + u) ^ (k + 1)) (plainShfl M off l) (roundShfl A c off l) (plainShfl s off l) := by
  rw [plainShfl_eq, plainShfl_eq]
  unfold roundShfl
  refine near_add hA (h l) (l := k) ?_ le_rfl le_rfl
  split_ifs with hl
  · exact h _
  · exact h l

theorem near_shfls (hA : A.Accurate u) (offs : List Nat) {k : Nat} {M c s : Fin 32 → ℝ} (h : ∀ l, Near ((1 + u) ^ k) (M l) (c l) (s l)) (l : Fin 32) :
    Near ((1 + u) ^ (k + offs.length)) (offs.foldl plainShfl M l) (offs.foldl (roundShfl A) c l) (offs.foldl plainShfl s l) := by
  induction offs generalizing k M c s with
  | nil => exact h l
  | cons o offs ih =>
    have := ih (fun l => near_shfl hA h o l)
    rw [List.length_cons, show k + (offs.length + 1) = k + 1 + offs.length by omega]
    exact this

theorem plain_sum (v : Fin 32 → ℝ) : [16, 8, 4, 2, 1].foldl plainShfl v 0 = ∑ l, v l := warpReduce_full (fun _ _ => 0) v

theorem near_warpReduce (hA : A.Accurate u) {k : Nat} {M c s : Fin 32 → ℝ} (h : ∀ l, Near ((1 + u) ^ k) (M l) (c l) (s l)) :
    Near ((1 + u) ^ (k + 5)) (∑ l, M l) (roundWarpReduce A c 0) (∑ l, s l) := by
  have := near_shfls hA [16, 8, 4, 2, 1] h 0
  rw [plain_sum, plain_sum] at this
  exact this

theorem near_warpDot (hA : A.Accurate u) (a b : Fin 32 → ℝ) :
    Near ((1 + u) ^ 6) (∑ l, |a l| * |b l|) (roundWarpDot A a b 0) (∑ l, a l * b l) := by
  rw [← plain_sum fun l => |a l| * |b l|, ← plain_sum fun l => a l * b l]
  refine near_shfls hA [8, 4, 2, 1] (k := 2) (fun l => ?_) 0
  rw [plainShfl_eq, plainShfl_eq, add_comm (|a l| * |b l|), add_comm (a l * b l)]
  refine near_axpy hA (near_self (a l) u) (near_self (b l) u) (j := 1) ?_ le_rfl le_rfl
  split_ifs with hl
  · exact near_mul hA (near_self _ u) (near_self _ u) le_rfl
  · exact near_mul hA (near_self _ u) (near_self _ u) le_rfl

theorem sum_coordinate (g : ℝ → ℝ → ℝ) (x y : Vec f ℝ) :
    ∑ i ∈ Finset.range f, g (coordinate x i) (coordinate y i) = ∑ i, g (x i) (y i) := by
  rw [← Fin.sum_univ_eq_sum_range fun i => g (coordinate x i) (coordinate y i)]
  refine Finset.sum_congr rfl fun i _ => ?_
  unfold coordinate
  simp

theorem sum_full {W : Nat} (hf : f = 32 * W) (g : ℝ → ℝ → ℝ) (x y : Vec f ℝ) :
    ∑ w ∈ Finset.range W, ∑ l : Fin 32, g (coordinate x (32 * w + l.val)) (coordinate y (32 * w + l.val)) = ∑ i, g (x i) (y i) := by
  rw [sum_blocks fun i => g (coordinate x i) (coordinate y i), ← hf, sum_coordinate]

/-- At most eleven roundings for every product, whatever the number of factors. -/
theorem near_blockDot (hA : A.Accurate u) (hpos : 0 < f) (hmax : f ≤ 1024) (hf : f % 32 = 0) (x y : Vec f ℝ) :
    Near ((1 + u) ^ 11) (∑ i, |x i| * |y i|) (roundBlockDot A x y) (dot x y) := by
  obtain ⟨W, hW⟩ : ∃ W, f = 32 * W := ⟨f / 32, by omega⟩
  have e : dot x y = ∑ i, x i * y i := rfl
  rw [e, ← sum_full hW (fun a b => |a| * |b|) x y, ← sum_full hW (fun a b => a * b) x y]
  unfold roundBlockDot
  split_ifs with h
  · have h1 : W = 1 := by omega
    subst h1
    rw [Finset.sum_range_one, Finset.sum_range_one]
    exact (near_warpDot hA _ _).mono (growth_mono hA.nonneg (by omega))
  · have hn : numWarps f = W := by unfold numWarps; omega
    rw [hn, ← sum_warps (show W ≤ 32 by omega), ← sum_warps (show W ≤ 32 by omega)]
    refine near_warpReduce hA (k := 6) fun l => ?_
    split_ifs with hl
    · exact near_warpDot hA _ _
    · rw [hA.zero]
      exact ⟨one_le_growth hA.nonneg _, by simp, by simp⟩

theorem blockDot_accurate (hA : A.Accurate u) (hpos : 0 < f) (hmax : f ≤ 1024) (hf : f % 32 = 0) (x y : Vec f ℝ) :
    |roundBlockDot A x y - dot x y| ≤ ((1 + u) ^ (f + 1) - 1) * ∑ i, |x i| * |y i| :=
  ((near_blockDot hA hpos hmax hf x y).mono (growth_mono hA.nonneg (by omega))).2.1

end Implicit
