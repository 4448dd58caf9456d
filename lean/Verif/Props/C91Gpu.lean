import Verif.Lemmas.RoundCgDense
import Verif.Props.C91Sweep
/-!
# C91 — the CUDA kernel and the python solver

The same bounds as in `Verif.Props.C91`, with the same `Spec.cgError`.
-/

set_option linter.unusedSectionVars false

namespace Implicit

open Spec (ValidRow)

variable {f : Nat}

/-! ## What a small residual means -/

section
variable (Y : List (Vec f ℝ)) {reg : ℝ} (hreg : 0 < reg) (row : List (Nat × ℝ)) (hrow : ValidRow Y.length row)
  {x r : Vec f ℝ} {E : ℝ} (h : Spec.length (Spec.residual Y row reg x - r) ≤ E)

include hreg hrow h

theorem residual_bound : Spec.length (Spec.residual Y row reg x) ≤ Spec.length r + E := by
  have := length_add_le (Spec.residual Y row reg x - r) r
  rw [sub_add_cancel] at this
  linarith

theorem factor_of_residual {z : Vec f ℝ} (hz : Spec.NormalEquations Y row reg z) :
    Spec.length (x - z) ≤ (Spec.length r + E) / reg := by
  have h := residual_bound Y hreg row hrow h
  rw [residual_eq Y row hrow] at h
  exact (stable_solution hreg (linearEquation_coercive Y row hrow.nodup hrow.lt reg) ((normalEquations_iff Y row hrow reg z).mp hz) h).1

theorem loss_of_residual (z : Vec f ℝ) : Spec.rowLoss Y row reg x ≤ Spec.rowLoss Y row reg z + (Spec.length r + E) ^ 2 / reg := by
  have h := residual_bound Y hreg row hrow h
  rw [residual_eq Y row hrow] at h
  have hpd := linearEquation_posDef Y row hrow.nodup hrow.lt hreg
  obtain ⟨s, hs⟩ := posDef_solvable hpd (linearEquation (gram Y) reg (row.map fun e => (Y[e.1]?.getD 0, e.2))).2
  have h1 := (stable_solution hreg (linearEquation_coercive Y row hrow.nodup hrow.lt reg) hs h).2
  have h2 := quad_eq hpd.symm hs x
  have h3 := quad_le hpd hs z
  rw [rowLoss_eq Y row hrow.nodup hrow.lt, rowLoss_eq Y row hrow.nodup hrow.lt]
  linarith

end

/-! ## The common part -/

section
variable {A : FloatOps ℝ} {Q : CgProducts f} {u : ℝ} {H : Mat f ℝ} (hA : A.Accurate u) (hQ : Q.Accurate u H) (r : Rounding ℝ) (hr : r.u = u)
  (h0 : r.η = 0) (Y : List (Vec f ℝ)) (order : Fin f → Fin f → SumTree Y.length) (ho : ∀ a b, (order a b).Complete) {reg : ℝ}
  (hreg : 0 < reg) (hH : ∀ a b, Near ((1 + u) ^ (Y.length + 5)) (sizeMat Y reg a b) (H a b) (regularised (gram Y) reg a b))
  (row : List (Nat × ℝ)) (hrow : ValidRow Y.length row) (hsmall : (1 + u) ^ (f + 2) ≤ 3 / 2) (tol : ℝ) (steps : Nat)
  (x₀ : Vec f ℝ)

include hA hQ hsmall

theorem dense_stops (es : List (Vec f ℝ × ℝ)) {e : CgEnd f} (he : denseCgSolve A Q tol steps es x₀ = e) :
    (e.converged = true → Spec.length e.r ^ 2 ≤ 2 * tol) ∧ (e.converged = false → tol ≤ 2 * Spec.length e.r ^ 2) := by
  have hnear : |Q.dot e.r e.r - Spec.length e.r ^ 2| ≤ 1 / 2 * Spec.length e.r ^ 2 := by
    have h := hQ.dot e.r e.r
    have h1 : ∑ i, |e.r i| * |e.r i| = Spec.length e.r ^ 2 := by
      rw [length_sq_sum]
      exact Finset.sum_congr rfl fun i _ => by rw [abs_mul_abs_self, sq]
    rw [h1, ← length_sq_dot] at h
    refine h.trans (mul_le_mul_of_nonneg_right ?_ (sq_nonneg _))
    have := growth_mono hA.nonneg (show f + 1 ≤ f + 2 by omega)
    linarith
  have hn := abs_le.mp hnear
  have hflag : e.converged = A.lt (Q.dot e.r e.r) tol := by
    rw [← he]
    exact denseSolve_flag steps x₀
  rw [hflag]
  refine ⟨fun h => ?_, fun h => ?_⟩
  · have := (hA.lt _ _).mp h
    linarith
  · have : ¬Q.dot e.r e.r < tol := fun hc => by rw [(hA.lt _ _).mpr hc] at h; cases h
    have h2 := sq_nonneg (Spec.length e.r)
    linarith

include hr h0 ho hreg hH hrow

theorem dense_residual {X : ℝ}
    (hX : ∀ j ≤ steps, Spec.length (denseCgSolve A Q tol j (row.map fun e => ((Y[e.1]?.getD 0 : Vec f ℝ), e.2)) x₀).x ≤ X)
    {e : CgEnd f} (he : denseCgSolve A Q tol steps (row.map fun e => ((Y[e.1]?.getD 0 : Vec f ℝ), e.2)) x₀ = e) :
    Spec.length (Spec.residual Y row reg e.x - e.r) ≤ Spec.cgError u steps Y row reg X := by
  have hhalf : (1 + u) ^ 2 ≤ 3 / 2 := (growth_mono hA.nonneg (by omega)).trans hsmall
  rw [residual_eq Y row hrow, ← he]
  obtain ⟨es, hes⟩ : ∃ es, es = row.map fun e => ((Y[e.1]?.getD 0 : Vec f ℝ), e.2) := ⟨_, rfl⟩
  have hlen : es.length = row.length := by rw [hes, List.length_map]
  rw [← hes] at hX ⊢
  have hT : traceSize Y reg es = Spec.systemSize Y row reg := by rw [hes, traceSize_eq]
  have hB : (es.map fun e => gain e.2 * Spec.length e.1).sum = Spec.targetSize Y row := by rw [hes, targetSize_eq]
  have hT0 : 0 ≤ traceSize Y reg es := by
    rw [← trace_rowSize Y hreg.le]
    exact Finset.sum_nonneg fun a _ => ((near_system hA r hr h0 Y order ho reg es rfl).1 a a).nonneg
  have := gap_denseSolve hA hQ Y hreg.le hH es tol steps x₀ hhalf hX (length_exact hA r hr h0 Y order ho hreg.le es) hT0
  rw [hT, hB, hlen] at this
  refine this.trans (le_of_eq ?_)
  unfold Spec.cgError
  ring

end

/-! ## The kernel -/

theorem near_foldAxpy {A : FloatOps ℝ} {u : ℝ} (hA : A.Accurate u) (x y : Vec f ℝ) (l : List (Fin f)) {k : Nat} (hk : 1 ≤ k) {M c s : ℝ}
    (h : Near ((1 + u) ^ k) M c s) :
    Near ((1 + u) ^ (k + l.length)) (M + (l.map fun j => |x j| * |y j|).sum)
      (l.foldl (fun s j => A.axpy (x j) (y j) s) c) (s + (l.map fun j => x j * y j).sum) := by
  induction l generalizing k M c s with
  | nil => simpa using h
  | cons j l ih =>
    have := ih (k := k + 1) (by omega) (near_axpy hA (near_self (x j) u) (near_self (y j) u) h (m := k + 1) (by omega) (by omega))
    simp only [List.map_cons, List.sum_cons, List.foldl_cons, List.length_cons, ← add_assoc] at this ⊢
    rw [show k + l.length + 1 = k + 1 + l.length by omega]
    exact this

theorem near_column {A : FloatOps ℝ} {u : ℝ} (hA : A.Accurate u) (x y : Vec f ℝ) :
    Near ((1 + u) ^ (f + 1)) (∑ i, |x i| * |y i|) ((List.finRange f).foldl (fun s i => A.axpy (x i) (y i) s) A.zero) (∑ i, x i * y i) := by
  have h := near_foldAxpy hA x y (List.finRange f) (k := 1) le_rfl (M := 0) (c := A.zero) (s := 0) (by
    rw [hA.zero]
    exact ⟨one_le_growth hA.nonneg _, by simp, by simp⟩)
  rw [zero_add, zero_add, List.length_finRange, add_comm 1 f] at h
  rw [Fin.sum_univ_def, Fin.sum_univ_def]
  exact h

/-- **C91** (assumptions).  The threads' sums are accurate; the matrix they use is the transposed one. -/
theorem gpuCgProducts_accurate {A : FloatOps ℝ} {u : ℝ} (hA : A.Accurate u) {D : Vec f ℝ → Vec f ℝ → ℝ}
    (hD : ∀ x y, |D x y - dot x y| ≤ ((1 + u) ^ (f + 1) - 1) * ∑ i, |x i| * |y i|) (G : Mat f ℝ) :
    (gpuCgProducts A D G).Accurate u fun a b => G b a where
  dot := hD
  times x a := by
    have h := (near_column hA x (fun i => G i a)).2.1
    have e1 : mulVec (fun a b => G b a) x a = ∑ i, x i * G i a := by
      unfold mulVec dot
      exact Finset.sum_congr rfl fun i _ => mul_comm _ _
    have e2 : ∑ b, |G b a| * |x b| = ∑ i, |x i| * |G i a| := Finset.sum_congr rfl fun i _ => mul_comm _ _
    rw [e1, e2]
    exact h
  timesNeg x a := by
    have h := (near_column hA (fun i => -x i) (fun i => G i a)).2.1
    have e1 : -mulVec (fun a b => G b a) x a = ∑ i, -x i * G i a := by
      unfold mulVec dot
      rw [← Finset.sum_neg_distrib]
      exact Finset.sum_congr rfl fun i _ => by ring
    have e2 : ∑ b, |G b a| * |x b| = ∑ i, |-x i| * |G i a| := Finset.sum_congr rfl fun i _ => by rw [abs_neg, mul_comm]
    rw [e1, e2]
    exact h

theorem near_gpuGram {A : FloatOps ℝ} {u : ℝ} (hA : A.Accurate u) (r : Rounding ℝ) (hr : r.u = u) (h0 : r.η = 0) (Y : List (Vec f ℝ))
    (order : Fin f → Fin f → SumTree Y.length) (ho : ∀ a b, (order a b).Complete) (reg : ℝ) (a b : Fin f) :
    Near ((1 + u) ^ (Y.length + 5)) (sizeMat Y reg a b) (gpuRegularised A (roundGram r Y order) reg b a) (regularised (gram Y) reg a b) := by
  have e1 : sizeMat Y reg a b = sizeMat Y reg b a := by
    have := rowSize_symm Y reg [] a b
    unfold rowSize at this
    simpa using this
  have e2 : regularised (gram Y) reg a b = regularised (gram Y) reg b a := linearEquation_symm (gram_symm Y) reg [] a b
  have h1 := near_gram r h0 Y order ho b a
  rw [hr] at h1
  rw [e1, e2]
  unfold gpuRegularised
  split_ifs with hab
  · have h2 := near_add hA h1 (near_self reg u) (m := Y.length + 5) (by omega) (by omega)
    subst hab
    have e3 : regularised (gram Y) reg b b = gram Y b b + reg := by unfold regularised; simp
    rw [e3]
    have e4 : sizeMat Y reg b b = (Y.map fun y => |y b| * |y b|).sum + |reg| := by unfold sizeMat; simp
    rw [e4]
    exact h2
  · have e3 : regularised (gram Y) reg b a = gram Y b a := by unfold regularised; simp [hab]
    have e4 : sizeMat Y reg b a = (Y.map fun y => |y b| * |y a|).sum := by unfold sizeMat; simp [hab]
    rw [e3, e4]
    exact h1.mono (growth_mono hA.nonneg (by omega))

section
variable {A : FloatOps ℝ} {D : Vec f ℝ → Vec f ℝ → ℝ} {u : ℝ} (hA : A.Accurate u)
  (hD : ∀ x y, |D x y - dot x y| ≤ ((1 + u) ^ (f + 1) - 1) * ∑ i, |x i| * |y i|) (r : Rounding ℝ) (hr : r.u = u)
  (h0 : r.η = 0) (Y : List (Vec f ℝ)) (order : Fin f → Fin f → SumTree Y.length) (ho : ∀ a b, (order a b).Complete) {reg : ℝ}
  (hreg : 0 < reg) (row : List (Nat × ℝ)) (hrow : ValidRow Y.length row) (hsmall : (1 + u) ^ (f + 2) ≤ 3 / 2) (tol : ℝ) (steps : Nat)
  (x₀ : Vec f ℝ)

include hrow in
theorem gpuRow_run (hne : row ≠ []) (j : Nat) : roundGpuRow A D r tol j Y order reg row x₀ =
    .ok (denseCgSolve A (gpuCgProducts A D (gpuRegularised A (roundGram r Y order) reg)) tol j
      (row.map fun e => (Y[e.1]?.getD 0, e.2)) x₀) := by
  unfold roundGpuRow
  rw [if_neg (by simpa using hne), rowEntries_eq hrow.lt]
  rfl

variable {e : CgEnd f} (he : roundGpuRow A D r tol steps Y order reg row x₀ = .ok e)

include hA hD hr h0 ho hreg hrow hsmall he

/-- **C91** (GPU, residual).  The residual a thread block maintains is that of the dense problem, up to `cgError`. -/
theorem C91_gpu_residual {X : ℝ} (hX : ∀ j ≤ steps, ∀ e', roundGpuRow A D r tol j Y order reg row x₀ = .ok e' → Spec.length e'.x ≤ X) :
    Spec.length (Spec.residual Y row reg e.x - e.r) ≤ Spec.cgError u steps Y row reg X := by
  by_cases hne : row = []
  · have hX0 : 0 ≤ X := (length_nonneg _).trans (hX steps le_rfl e he)
    subst hne
    injection he with he
    have hz : (fun _ : Fin f => A.zero) = 0 := by rw [hA.zero]; rfl
    rw [hz] at he
    -- no rounds at all, from zero
    have hz' : Spec.residual Y [] reg (0 : Vec f ℝ) = 0 := by
      rw [residual_eq Y [] hrow, mulVec_zero, sub_zero]
      funext a
      rw [linearEquation_snd]
      rfl
    rw [← he]
    dsimp only
    rw [hz', sub_zero, length_zero]
    unfold Spec.cgError
    refine mul_nonneg (mul_nonneg (mul_nonneg (by positivity) (pow_nonneg (by linarith [hA.nonneg]) _)) ?_) ?_
    · linarith [one_le_growth hA.nonneg (Y.length + ([] : List (Nat × ℝ)).length + f + 12)]
    · rw [← traceSize_eq, ← trace_rowSize Y hreg.le]
      have h1 := (near_system hA r hr h0 Y order ho reg (([] : List (Nat × ℝ)).map fun e => ((Y[e.1]?.getD 0 : Vec f ℝ), e.2)) rfl).1
      have h2 := Finset.sum_nonneg fun (a : Fin f) (_ : a ∈ Finset.univ) => (h1 a a).nonneg
      unfold Spec.targetSize
      simp only [List.map_nil, List.sum_nil, add_zero] at h2 ⊢
      positivity
  · have hrun := gpuRow_run (A := A) (D := D) r Y order (reg := reg) row hrow tol x₀ hne
    rw [hrun] at he
    injection he with he
    exact dense_residual hA (gpuCgProducts_accurate hA hD _) r hr h0 Y order ho hreg (near_gpuGram hA r hr h0 Y order ho reg) row hrow
      hsmall tol steps x₀ (fun j hj => hX j hj _ (hrun j)) he

omit hr h0 ho hreg in
/-- **C91** (GPU, when it stops). -/
theorem C91_gpu_stops : (e.converged = true → Spec.length e.r ^ 2 ≤ 2 * tol ∨ row = []) ∧
    (e.converged = false → tol ≤ 2 * Spec.length e.r ^ 2) := by
  by_cases hne : row = []
  · subst hne
    injection he with he
    subst he
    exact ⟨fun _ => Or.inr rfl, fun h => by cases h⟩
  · rw [gpuRow_run r Y order row hrow tol x₀ hne] at he
    injection he with he
    have := dense_stops hA (gpuCgProducts_accurate hA hD _) hsmall tol steps x₀ _ he
    exact ⟨fun h => Or.inl (this.1 h), this.2⟩

variable {X : ℝ} (hX : ∀ j ≤ steps, ∀ e', roundGpuRow A D r tol j Y order reg row x₀ = .ok e' → Spec.length e'.x ≤ X)

include hX

/-- **C91** (GPU, factor). -/
theorem C91_gpu_factor {z : Vec f ℝ} (hz : Spec.NormalEquations Y row reg z) :
    Spec.length (e.x - z) ≤ (Spec.length e.r + Spec.cgError u steps Y row reg X) / reg :=
  factor_of_residual Y hreg row hrow (C91_gpu_residual hA hD r hr h0 Y order ho hreg row hrow hsmall tol steps x₀ he hX) hz

/-- **C91** (GPU, loss). -/
theorem C91_gpu_loss (z : Vec f ℝ) :
    Spec.rowLoss Y row reg e.x ≤ Spec.rowLoss Y row reg z + (Spec.length e.r + Spec.cgError u steps Y row reg X) ^ 2 / reg :=
  loss_of_residual Y hreg row hrow (C91_gpu_residual hA hD r hr h0 Y order ho hreg row hrow hsmall tol steps x₀ he hX) z

end

/-- **C91** (`recalculate_user` on the GPU).  Whatever the number of factors, the answer is the best factor up to the residual the
kernel ends with. -/
theorem C91_gpu_recalculate {A : FloatOps ℝ} {D : Vec f ℝ → Vec f ℝ → ℝ} {u : ℝ} (hA : A.Accurate u)
    (hD : ∀ x y, |D x y - dot x y| ≤ ((1 + u) ^ (f + 1) - 1) * ∑ i, |x i| * |y i|) (r : Rounding ℝ) (hr : r.u = u)
    (h0 : r.η = 0) (Y : List (Vec f ℝ)) (order : Fin f → Fin f → SumTree Y.length) (ho : ∀ a b, (order a b).Complete) {reg : ℝ}
    (hreg : 0 < reg) (row : List (Nat × ℝ)) (hrow : ValidRow Y.length row) (hsmall : (1 + u) ^ (f + 2) ≤ 3 / 2) (tol : ℝ)
    {e : CgEnd f} (he : roundGpuRecalculate A D r tol Y order reg row = .ok e) {X : ℝ}
    (hX : ∀ j ≤ f, ∀ e', roundGpuRow A D r tol j Y order reg row (fun _ => 0) = .ok e' → Spec.length e'.x ≤ X) {z : Vec f ℝ}
    (hz : Spec.NormalEquations Y row reg z) :
    Spec.length (e.x - z) ≤ (Spec.length e.r + Spec.cgError u f Y row reg X) / reg := by
  unfold roundGpuRecalculate at he
  rw [hA.zero] at he
  exact C91_gpu_factor hA hD r hr h0 Y order ho hreg row hrow hsmall tol f _ he hX hz

/-! ## The python solver -/

theorem pyCgProducts_accurate (r : Rounding ℝ) (h0 : r.η = 0) {t : SumTree f} (ht : t.Complete) {rows : Fin f → SumTree f}
    (hrows : ∀ a, (rows a).Complete) (G : Mat f ℝ) : (pyCgProducts r t rows G).Accurate r.u G := by
  have key : ∀ (t : SumTree f) (ht : t.Complete) (x y : Vec f ℝ),
      |t.eval r x y - dot x y| ≤ ((1 + r.u) ^ (f + 1) - 1) * ∑ i, |x i| * |y i| :=
    fun t ht x y => (treeProducts_accurate r h0 t ht (fun _ => t) (fun _ => ht)).dot x y
  refine ⟨key t ht, fun x a => key (rows a) (hrows a) _ _, fun x a => ?_⟩
  have := key (rows a) (hrows a) (G a) x
  show |-(rows a).eval r (G a) x - -dot (G a) x| ≤ _
  rw [← abs_neg]
  refine le_trans (le_of_eq ?_) this
  congr 1
  ring

section
variable {A : FloatOps ℝ} {u : ℝ} (hA : A.Accurate u) (r : Rounding ℝ) (hr : r.u = u) (h0 : r.η = 0) (t : SumTree f) (ht : t.Complete)
  (rows : Fin f → SumTree f) (hrows : ∀ a, (rows a).Complete) (Y : List (Vec f ℝ)) (order : Fin f → Fin f → SumTree Y.length)
  (ho : ∀ a b, (order a b).Complete) {reg : ℝ} (hreg : 0 < reg) (row : List (Nat × ℝ)) (hrow : ValidRow Y.length row)
  (hsmall : (1 + u) ^ (f + 2) ≤ 3 / 2) (tol : ℝ) (steps : Nat) (x₀ : Vec f ℝ)

include hrow in
theorem pyRow_run (j : Nat) : roundPyCgRow A r t rows tol j Y order reg row x₀ =
    .ok (denseCgSolve A (pyCgProducts r t rows (A.regularised (roundGram r Y order) reg)) tol j
      (row.map fun e => (Y[e.1]?.getD 0, e.2)) x₀) := by
  unfold roundPyCgRow
  rw [rowEntries_eq hrow.lt]
  rfl

variable {e : CgEnd f} (he : roundPyCgRow A r t rows tol steps Y order reg row x₀ = .ok e)

include hA hr h0 ht hrows ho hreg hrow hsmall he

/-- **C91** (python, residual).  Rows without entries included: they are not set to zero but move towards it. -/
theorem C91_python_residual {X : ℝ}
    (hX : ∀ j ≤ steps, ∀ e', roundPyCgRow A r t rows tol j Y order reg row x₀ = .ok e' → Spec.length e'.x ≤ X) :
    Spec.length (Spec.residual Y row reg e.x - e.r) ≤ Spec.cgError u steps Y row reg X := by
  have hrun := pyRow_run (A := A) r t rows Y order (reg := reg) row hrow tol x₀
  rw [hrun] at he
  injection he with he
  have hQ := pyCgProducts_accurate r h0 ht hrows (A.regularised (roundGram r Y order) reg)
  rw [hr] at hQ
  exact dense_residual hA hQ r hr h0 Y order ho hreg (near_regularised hA r hr h0 Y order ho reg).1 row hrow hsmall tol steps x₀
    (fun j hj => hX j hj _ (hrun j)) he

omit ho hreg in
/-- **C91** (python, when it stops). -/
theorem C91_python_stops : (e.converged = true → Spec.length e.r ^ 2 ≤ 2 * tol) ∧
    (e.converged = false → tol ≤ 2 * Spec.length e.r ^ 2) := by
  rw [pyRow_run r t rows Y order row hrow tol x₀] at he
  injection he with he
  have hQ := pyCgProducts_accurate r h0 ht hrows (A.regularised (roundGram r Y order) reg)
  rw [hr] at hQ
  exact dense_stops hA hQ hsmall tol steps x₀ _ he

variable {X : ℝ} (hX : ∀ j ≤ steps, ∀ e', roundPyCgRow A r t rows tol j Y order reg row x₀ = .ok e' → Spec.length e'.x ≤ X)

include hX

/-- **C91** (python, factor). -/
theorem C91_python_factor {z : Vec f ℝ} (hz : Spec.NormalEquations Y row reg z) :
    Spec.length (e.x - z) ≤ (Spec.length e.r + Spec.cgError u steps Y row reg X) / reg :=
  factor_of_residual Y hreg row hrow
    (C91_python_residual hA r hr h0 t ht rows hrows Y order ho hreg row hrow hsmall tol steps x₀ he hX) hz

/-- **C91** (python, loss). -/
theorem C91_python_loss (z : Vec f ℝ) :
    Spec.rowLoss Y row reg e.x ≤ Spec.rowLoss Y row reg z + (Spec.length e.r + Spec.cgError u steps Y row reg X) ^ 2 / reg :=
  loss_of_residual Y hreg row hrow
    (C91_python_residual hA r hr h0 t ht rows hrows Y order ho hreg row hrow hsmall tol steps x₀ he hX) z

end

/-! ## An example -/

/-- One round of the kernel on the machine of `biased_round`. -/
theorem biased_gpuRound {c : ℝ} (hc : c = 1 + 1 / 2 ^ 24) (j : Nat) (hj : j ≤ 1) :
    ∃ e, roundGpuRow (roundOps biased false) (roundOps biased false).dot biased (1 / 10 ^ 20) j [fun _ : Fin 1 => 1]
        (fun _ _ => .leaf 0) 1 [(0, 3)] (fun _ => 0) = .ok e ∧ e.x = (fun _ => if j = 0 then 0 else 3 * c ^ 2 / (1 + c + 2 * c ^ 2)) ∧
      e.r = fun _ => if j = 0 then 3 * c ^ 3 else 3 * c ^ 4 * (1 - c ^ 2) := by
  have hc0 : 0 < c := by rw [hc]; positivity
  obtain ⟨A, hA⟩ : ∃ A, A = roundOps biased false := ⟨_, rfl⟩
  have hrnd : ∀ x, biased.rnd x = x * c := fun x => by rw [hc]; rfl
  have hadd : ∀ a b, A.add a b = (a + b) * c := fun a b => by rw [hA]; exact hrnd _
  have hsub : ∀ a b, A.sub a b = (a - b) * c := fun a b => by rw [hA]; exact hrnd _
  have hmul : ∀ a b, A.mul a b = a * b * c := fun a b => by rw [hA]; exact hrnd _
  have hdiv : ∀ a b, A.div a b = a / b * c := fun a b => by rw [hA]; exact hrnd _
  have hax : ∀ t y s, A.axpy t y s = (s + t * y * c) * c := fun t y s => by
    rw [hA]
    show biased.rnd (s + biased.rnd (t * y)) = _
    rw [hrnd, hrnd]
  have hz : A.zero = 0 := by rw [hA]; rfl
  have ho : A.one = 1 := by rw [hA]; rfl
  have hlt : ∀ a b, A.lt a b = decide (a < b) := fun a b => by rw [hA]; rfl
  have hdot : ∀ x y : Vec 1 ℝ, A.dot x y = x 0 * y 0 * c ^ 2 := fun x y => by
    unfold FloatOps.dot
    simp only [List.finRange_succ, List.finRange_zero, List.map_nil, List.foldl_cons, List.foldl_nil, hadd, hmul, hz]
    ring
  obtain ⟨G, hG⟩ : ∃ G, G = gpuRegularised A (roundGram biased [fun _ : Fin 1 => 1] (fun _ _ => .leaf 0)) 1 := ⟨_, rfl⟩
  have hG0 : ∀ a b, G a b = (1 + c) * c := by
    intro a b
    have ha : a = b := Subsingleton.elim _ _
    subst ha
    rw [hG]
    unfold gpuRegularised roundGram SumTree.eval
    rw [if_pos rfl, hadd, hrnd]
    simp
    exact Or.inl (add_comm _ _)
  obtain ⟨Q, hQ⟩ : ∃ Q, Q = gpuCgProducts A A.dot G := ⟨_, rfl⟩
  have hdot' : ∀ x y : Vec 1 ℝ, Q.dot x y = x 0 * y 0 * c ^ 2 := fun x y => by rw [hQ]; exact hdot x y
  have htimes : ∀ x a, Q.times x a = (1 + c) * c ^ 3 * x 0 := fun x a => by
    rw [hQ]
    unfold gpuCgProducts
    simp only [List.finRange_succ, List.finRange_zero, List.map_nil, List.foldl_cons, List.foldl_nil, hax, hz, hG0]
    ring
  have htimesN : ∀ x a, Q.timesNeg x a = -((1 + c) * c ^ 3 * x 0) := fun x a => by
    rw [hQ]
    unfold gpuCgProducts
    simp only [List.finRange_succ, List.finRange_zero, List.map_nil, List.foldl_cons, List.foldl_nil, hax, hz, hG0]
    ring
  have hres : denseCgResidual A Q [(fun _ => 1, 3)] (fun _ => 0) = fun _ => 3 * c ^ 3 := by
    funext a
    unfold denseCgResidual
    simp only [List.foldl_cons, List.foldl_nil, hlt, hz]
    rw [if_pos (by norm_num)]
    unfold FloatOps.axpyVec
    rw [hax, htimesN, hax, hdot']
    ring
  have happ : ∀ p : Vec 1 ℝ, denseCgApply A Q [(fun _ => 1, 3)] p = fun _ => c ^ 4 * (1 + c + 2 * c ^ 2) * p 0 := by
    intro p
    funext a
    unfold denseCgApply
    simp only [List.foldl_cons, List.foldl_nil, hlt, hz]
    rw [if_neg (by norm_num)]
    unfold FloatOps.axpyVec
    rw [hax, htimes, hmul, hsub, hdot', ho]
    ring
  have hrs : Q.dot (fun _ => 3 * c ^ 3) (fun _ => 3 * c ^ 3) = 9 * c ^ 8 := by
    rw [hdot']
    ring
  have hbig : ¬9 * c ^ 8 < 1 / 10 ^ 20 := by
    have : 1 ≤ c ^ 8 := one_le_pow₀ (by rw [hc]; norm_num)
    norm_num
    linarith
  have hsolve : ∀ j, denseCgSolve A Q (1 / 10 ^ 20) j [(fun _ => 1, 3)] (fun _ => 0) =
      denseCgLoop A Q [(fun _ => 1, 3)] (1 / 10 ^ 20) j ⟨fun _ => 0, fun _ => 3 * c ^ 3, fun _ => 3 * c ^ 3, 9 * c ^ 8⟩ := by
    intro j
    unfold denseCgSolve
    rw [hres]
    show (if A.lt (Q.dot (fun _ => 3 * c ^ 3) (fun _ => 3 * c ^ 3)) (1 / 10 ^ 20) = true then _ else
      denseCgLoop A Q _ _ j ⟨_, _, _, Q.dot (fun _ => 3 * c ^ 3) (fun _ => 3 * c ^ 3)⟩) = _
    rw [hrs, hlt, if_neg (by simpa using hbig)]
  refine ⟨denseCgSolve A Q (1 / 10 ^ 20) j [(fun _ => 1, 3)] (fun _ => 0), ?_, ?_⟩
  · rw [hQ, hG, hA]
    rfl
  rw [hsolve]
  rcases Nat.le_one_iff_eq_zero_or_eq_one.mp hj with rfl | rfl
  · exact ⟨rfl, rfl⟩
  · have hstep : ∀ e, e = denseCgLoop A Q [(fun _ => 1, 3)] (1 / 10 ^ 20) 1
        ⟨fun _ => 0, fun _ => 3 * c ^ 3, fun _ => 3 * c ^ 3, 9 * c ^ 8⟩ →
        e.x = (denseCgStep A Q [(fun _ => 1, 3)] ⟨fun _ => 0, fun _ => 3 * c ^ 3, fun _ => 3 * c ^ 3, 9 * c ^ 8⟩).x ∧
        e.r = (denseCgStep A Q [(fun _ => 1, 3)] ⟨fun _ => 0, fun _ => 3 * c ^ 3, fun _ => 3 * c ^ 3, 9 * c ^ 8⟩).r := by
      intro e he
      subst he
      rw [denseCgLoop]
      split_ifs <;> exact ⟨rfl, rfl⟩
    have h1c : 1 + c + 2 * c ^ 2 ≠ 0 := by positivity
    have hc' : c ≠ 0 := hc0.ne'
    rw [(hstep _ rfl).1, (hstep _ rfl).2]
    unfold denseCgStep
    simp only [happ, hdot', hdiv]
    constructor
    · funext a
      unfold FloatOps.axpyVec
      rw [hax, if_neg (by norm_num)]
      field_simp
      ring
    · funext a
      unfold FloatOps.axpyVec
      rw [hax, if_neg (by norm_num)]
      field_simp
      ring

/-- `recalculate_user` with one factor on that machine: not the best factor `3/4`, and within the bound. -/
example : ∃ e, roundGpuRecalculate (roundOps biased false) (roundOps biased false).dot biased (1 / 10 ^ 20) [fun _ : Fin 1 => 1]
      (fun _ _ => .leaf 0) 1 [(0, 3)] = .ok e ∧ e.x ≠ (fun _ => 3 / 4) ∧ Spec.length (e.x - fun _ => 3 / 4) ≤ 1 / 1000 := by
  have hl1 : ∀ c : ℝ, Spec.length (fun _ : Fin 1 => c) = |c| := fun c => by
    unfold Spec.length
    simp [Real.sqrt_sq_eq_abs]
  obtain ⟨e, he, hx, hres⟩ := biased_gpuRound rfl 1 le_rfl
  refine ⟨e, he, ?_, ?_⟩
  · rw [hx]
    intro h
    have := congrFun h 0
    norm_num at this
  have hT : Spec.systemSize [fun _ : Fin 1 => (1 : ℝ)] [(0, 3)] 1 = 6 := by
    unfold Spec.systemSize
    simp [hl1]
    norm_num
  have hB : Spec.targetSize [fun _ : Fin 1 => (1 : ℝ)] [(0, 3)] = 3 := by
    unfold Spec.targetSize
    simp [hl1]
  have hacc := roundOps_accurate biased rfl false
  have := C91_gpu_recalculate hacc (fun x y => (near_opsDot hacc x y).2.1) biased rfl rfl
    [fun _ : Fin 1 => 1] (fun _ _ => .leaf 0) (fun _ _ => by unfold SumTree.Complete; decide) one_pos [(0, 3)] ⟨by simp, by simp⟩
    (by unfold biased; norm_num) (1 / 10 ^ 20) (e := e) he (X := 1) (by
      intro j hj e' he'
      obtain ⟨e'', he'', hx'', -⟩ := biased_gpuRound rfl j hj
      rw [he''] at he'
      injection he' with he'
      rw [← he', hx'', hl1]
      split_ifs <;> norm_num) (z := fun _ => 3 / 4) (by
      intro a
      simp [Spec.confidence, Spec.preference]
      norm_num)
  refine this.trans ?_
  rw [hres, hl1]
  unfold Spec.cgError
  rw [hT, hB]
  unfold biased
  norm_num [abs_of_nonpos]

end Implicit
