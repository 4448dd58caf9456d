import Verif.Lemmas.RoundGpuDot
import Verif.Props.C91Gpu
/-!
# C91 — the CUDA kernel with its own dot product

`Verif.Props.C91Gpu` assumes that the dot product of a thread block is accurate.  For the code in `implicit/gpu/dot.cuh` this holds: every
product goes through at most eleven roundings.
-/

set_option linter.unusedSectionVars false

namespace Implicit

open Spec (ValidRow)

variable {f : Nat} {A : FloatOps ℝ} {u : ℝ} (hA : A.Accurate u) (hpos : 0 < f) (hmax : f ≤ 1024) (hf : f % 32 = 0)

include hA hpos hmax hf

/-- **C91** (GPU, dot product).  The error does not depend on the number of factors. -/
theorem C91_block_dot (x y : Vec f ℝ) : |roundBlockDot A x y - ∑ i, x i * y i| ≤ ((1 + u) ^ 11 - 1) * ∑ i, |x i| * |y i| :=
  (near_blockDot hA hpos hmax hf x y).2.1

section
variable (r : Rounding ℝ) (hr : r.u = u) (h0 : r.η = 0) {reg : ℝ} (hreg : 0 < reg) (hsmall : (1 + u) ^ (f + 2) ≤ 3 / 2) (tol : ℝ) (steps : Nat)

include hr h0 hreg hsmall

section
variable (Y : List (Vec f ℝ)) (order : Fin f → Fin f → SumTree Y.length) (ho : ∀ a b, (order a b).Complete) (row : List (Nat × ℝ))
  (hrow : ValidRow Y.length row) (x₀ : Vec f ℝ) {e : CgEnd f}
  (he : roundGpuRow A (roundBlockDot A) r tol steps Y order reg row x₀ = .ok e) {X : ℝ}
  (hX : ∀ j ≤ steps, ∀ e', roundGpuRow A (roundBlockDot A) r tol j Y order reg row x₀ = .ok e' → Spec.length e'.x ≤ X)

include ho hrow he hX

/-- **C91** (GPU, factor) with the block's dot product. -/
theorem C91_kernel_factor {z : Vec f ℝ} (hz : Spec.NormalEquations Y row reg z) :
    Spec.length (e.x - z) ≤ (Spec.length e.r + Spec.cgError u steps Y row reg X) / reg :=
  C91_gpu_factor hA (blockDot_accurate hA hpos hmax hf) r hr h0 Y order ho hreg row hrow hsmall tol steps x₀ he hX hz

/-- **C91** (GPU, loss) with the block's dot product. -/
theorem C91_kernel_loss (z : Vec f ℝ) :
    Spec.rowLoss Y row reg e.x ≤ Spec.rowLoss Y row reg z + (Spec.length e.r + Spec.cgError u steps Y row reg X) ^ 2 / reg :=
  C91_gpu_loss hA (blockDot_accurate hA hpos hmax hf) r hr h0 Y order ho hreg row hrow hsmall tol steps x₀ he hX z

end

omit hA hpos hmax hf hr h0 hreg hsmall in
theorem objective_of_rows (C : SpRows ℝ) (Y Z : List (Vec f ℝ)) (ends : List (CgEnd f)) (err : List (Nat × ℝ) → CgEnd f → ℝ)
    (hZ : Z.length = ends.length)
    (h : ∀ (i : Nat) (h1 : i < Z.length) (h2 : i < ends.length),
      Spec.rowLoss Y (C[i]?.getD []) reg ends[i].x ≤ Spec.rowLoss Y (C[i]?.getD []) reg Z[i] + err (C[i]?.getD []) ends[i]) :
    Spec.objective C (ends.map CgEnd.x) Y reg ≤ Spec.objective C Z Y reg + ∑ i : Fin ends.length, err (C[i.1]?.getD []) ends[i] := by
  rw [objective_users, objective_users C Z]
  have key : ∀ (n : Nat) (hn : n = ends.length) (g : Fin n → ℝ),
      (∀ (i : Nat) (h1 : i < n) (h2 : i < Z.length) (h3 : i < ends.length), g ⟨i, h1⟩ ≤ Spec.rowLoss Y (C[i]?.getD []) reg Z[i] +
        err (C[i]?.getD []) ends[i]) →
      ∑ i, g i ≤ ∑ i : Fin Z.length, Spec.rowLoss Y (C[i.1]?.getD []) reg Z[i] +
        ∑ i : Fin ends.length, err (C[i.1]?.getD []) ends[i] := by
    intro n hn g hg
    subst hn
    exact sum_le_error (by omega) (fun i : Fin Z.length => Spec.rowLoss Y (C[i.1]?.getD []) reg Z[i]) g
      (fun i => err (C[i.1]?.getD []) ends[i]) (fun i h1 h2 => hg i h2 h1 h2)
  have := key (ends.map CgEnd.x).length (by simp) (fun i => Spec.rowLoss Y (C[i.1]?.getD []) reg (ends.map CgEnd.x)[i]) (by
    intro i h1 h2 h3
    have h4 : (ends.map CgEnd.x)[i] = ends[i].x := by simp
    show Spec.rowLoss Y (C[i]?.getD []) reg (ends.map CgEnd.x)[i] ≤ _
    rw [h4]
    exact h i h2 h3)
  linarith

/-- **C91** (GPU, sweep).  Half an iteration of `fit` on the GPU: the objective is as low as any choice of this side's factors can make it,
up to the residuals the kernel ends with and rounding. -/
theorem C91_gpu_users (C : SpRows ℝ) (X Y : List (Vec f ℝ)) (order : Fin f → Fin f → SumTree Y.length) (ho : ∀ a b, (order a b).Complete)
    (hv : ∀ row ∈ C, ValidRow Y.length row) {ends : List (CgEnd f)}
    (hends : roundGpuLeastSquares A r tol steps C X Y order reg = .ok ends) {L : ℝ}
    (hL : ∀ (i : Nat) row x, C[i]? = some row → X[i]? = some x → ∀ j ≤ steps, ∀ e,
      roundGpuRow A (roundBlockDot A) r tol j Y order reg row x = .ok e → Spec.length e.x ≤ L) (Z : List (Vec f ℝ)) (hZ : Z.length = X.length) :
    Spec.objective C (ends.map CgEnd.x) Y reg ≤ Spec.objective C Z Y reg +
      ∑ i : Fin ends.length, (Spec.length ends[i].r + Spec.cgError u steps Y (C[i.1]?.getD []) reg L) ^ 2 / reg := by
  obtain ⟨hl, hget⟩ := mapM_ok_iff hends
  rw [List.length_zipIdx] at hl
  refine objective_of_rows C Y Z ends (fun row e => (Spec.length e.r + Spec.cgError u steps Y row reg L) ^ 2 / reg) (by omega) ?_
  intro i h1 h2
  have hX : i < X.length := by omega
  obtain ⟨e, he, hi⟩ := hget i (X[i], i) (by simp [hX])
  rw [List.getElem?_eq_getElem h2] at hi
  injection hi with hi
  dsimp only at he
  cases hc : C[i]? with
  | none => rw [hc] at he; cases he
  | some row =>
    rw [hc] at he
    rw [hi]
    exact C91_kernel_loss hA hpos hmax hf r hr h0 hreg hsmall tol steps Y order ho row (hv row (List.mem_of_getElem? hc)) X[i] he
      (fun j hj e he => hL i row X[i] hc (List.getElem?_eq_getElem hX) j hj e he) Z[i]

end

/-! ## An example -/

omit hA hpos hmax hf in
/-- The machine of `biased_round`, which rounds everything up, on the squared length of 32 ones: six roundings. -/
theorem biased_block {c : ℝ} (hc : c = 1 + 1 / 2 ^ 24) :
    roundBlockDot (roundOps biased false) (fun _ : Fin 32 => 1) (fun _ => 1) = 32 * c ^ 6 := by
  obtain ⟨A, hA⟩ : ∃ A, A = roundOps biased false := ⟨_, rfl⟩
  have hrnd : ∀ x, biased.rnd x = x * c := fun x => by rw [hc]; rfl
  have hadd : ∀ a b, A.add a b = (a + b) * c := fun a b => by rw [hA]; exact hrnd _
  have hmul : ∀ a b, A.mul a b = a * b * c := fun a b => by rw [hA]; exact hrnd _
  have hax : ∀ t y s, A.axpy t y s = (s + t * y * c) * c := fun t y s => by
    rw [hA]
    show biased.rnd (s + biased.rnd (t * y)) = _
    rw [hrnd, hrnd]
  rw [← hA]
  have hone : (fun l : Fin 32 => coordinate (fun _ : Fin 32 => (1 : ℝ)) (32 * 0 + l.val)) = fun _ => 1 := by
    funext l
    unfold coordinate
    rw [dif_pos (by omega)]
  have hconst : ∀ (v : ℝ) (off : Nat), roundShfl A (fun _ => v) off = fun _ => (v + v) * c := fun v off => by
    funext l
    unfold roundShfl
    rw [dite_eq_ite, ite_self, hadd]
  unfold roundBlockDot roundWarpPart
  rw [if_pos le_rfl, hone]
  unfold roundWarpDot
  simp only [hmul, hax, dite_eq_ite, ite_self, List.foldl_cons, List.foldl_nil, hconst]
  ring

omit hA hpos hmax hf in
/-- The result is wrong, but by no more than the theorem says. -/
example : roundBlockDot (roundOps biased false) (fun _ : Fin 32 => 1) (fun _ => 1) ≠ 32 ∧
    |roundBlockDot (roundOps biased false) (fun _ : Fin 32 => 1) (fun _ => 1) - ∑ _i : Fin 32, (1 : ℝ) * 1| ≤
      ((1 + 1 / 2 ^ 24) ^ 11 - 1) * ∑ _i : Fin 32, |(1 : ℝ)| * |(1 : ℝ)| := by
  refine ⟨?_, C91_block_dot (roundOps_accurate biased rfl false) (by omega) (by omega) (by omega) (fun _ => 1) (fun _ => 1)⟩
  rw [biased_block rfl]
  norm_num

end Implicit
