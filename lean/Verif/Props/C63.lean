import Mathlib.Tactic.Linarith
import Mathlib.Tactic.IntervalCases
import Verif.Model.GpuLaunch
import Verif.Props.C54
/-!
# C63 — a call on the GPU does its work or raises
-/

set_option linter.unusedSectionVars false

namespace Implicit

variable {R : Type} [LinearOrder R] [Field R] {f : Nat}

theorem gpuLaunch_ok {α : Type} {L : GpuLimits} {k : GpuKernel} {threads shared : Nat} (h : L.accepts k threads shared = true)
    (work : α → Except Err α) (a : α) (pending : Bool) :
    gpuLaunch L k threads shared work a pending = (work a).map fun b => (b, pending) := by
  unfold gpuLaunch
  rw [if_pos h]
  cases work a <;> rfl

theorem gpuLaunch_fail {α : Type} {L : GpuLimits} {k : GpuKernel} {threads shared : Nat} (h : L.accepts k threads shared = false)
    (work : α → Except Err α) (a : α) (pending : Bool) : gpuLaunch L k threads shared work a pending = .ok (a, true) := by
  unfold gpuLaunch
  rw [if_neg (by rw [h]; simp)]

/-- The device allows the two kernels of ALS training for `f` factors. -/
def Spec.AlsAllowed (L : GpuLimits) (f : Nat) : Prop :=
  1 ≤ f ∧ f ≤ L.threads .l2Regularize ∧ f ≤ L.threads .leastSquares ∧ 16 * f ≤ L.shared

theorem launchYtY_ok {L : GpuLimits} (h : Spec.AlsAllowed L f) (reg : R) (Y : List (Vec f R)) :
    launchYtY L reg Y false = .ok (regularised (gram Y) reg, false) := by
  obtain ⟨h1, h2, -, -⟩ := h
  unfold launchYtY
  rw [if_neg (by omega), if_neg (by simp), gpuLaunch_ok (by unfold GpuLimits.accepts; simp; omega)]
  rfl

theorem launchLeastSquares_ok {L : GpuLimits} (h : Spec.AlsAllowed L f) (tol : R) (steps : Nat) (G : Mat f R) (cols : Nat)
    (C : SpRows R) (X Y : List (Vec f R)) :
    launchLeastSquares L 4 tol steps G cols C X Y false =
      (gpuLeastSquares tol steps G cols C X Y).map fun X' => (X', false) := by
  obtain ⟨h1, -, h2, h3⟩ := h
  unfold launchLeastSquares
  split
  · rename_i h
    unfold gpuLeastSquares
    rw [if_pos h]
    rfl
  · split
    · rename_i h h'
      unfold gpuLeastSquares
      rw [if_neg h, if_pos h']
      rfl
    · rw [if_pos (by simp), gpuLaunch_ok (by unfold GpuLimits.accepts; simp; omega)]

theorem launchIteration_ok {L : GpuLimits} (h : Spec.AlsAllowed L f) (tol : R) (p : GpuALSParams R) (users items : Nat)
    (Cui Ciu : SpRows R) (m : Factors f R) :
    launchIteration L tol p users items Cui Ciu (m, false) =
      (gpuIteration tol p users items Cui Ciu m).map fun m' => (m', false) := by
  unfold launchIteration gpuIteration
  rw [launchYtY_ok h]
  simp only [bind, Except.bind]
  rw [launchLeastSquares_ok h]
  cases e : gpuLeastSquares tol p.cgSteps (regularised (gram m.item) p.regularization) items Cui m.user m.item with
  | error e => rfl
  | ok X =>
    simp only [Except.map]
    rw [launchYtY_ok h]
    simp only
    rw [launchLeastSquares_ok h]
    cases gpuLeastSquares tol p.cgSteps (regularised (gram X) p.regularization) users Ciu m.item X <;> rfl

/-- **C63** (training).  If the device allows the kernels for `f` factors, `fit` is what the kernels compute (C54), or raises as
they do, and no error is left behind. -/
theorem C63_fit {L : GpuLimits} (h : Spec.AlsAllowed L f) (tol : R) (p : GpuALSParams R) (cols : Nat) (C : SpRows R)
    (m : Factors f R) : launchFit L tol p cols C m = (gpuAlsFit tol p cols C m).map fun m' => (m', false) := by
  unfold launchFit gpuAlsFit
  generalize p.iterations = n
  induction n generalizing m with
  | zero => rfl
  | succ n ih =>
    unfold launchIterations gpuIterations
    rw [launchIteration_ok h]
    cases e : gpuIteration tol p C.length cols C (transposeRows cols C) m with
    | error e => rfl
    | ok m' => exact ih m'

/-- With the limits of every CUDA device — 1024 threads, 48 KiB — up to 1024 factors are allowed, and the trained factors are
those of the CPU. -/
theorem C63_fit_1024 {L : GpuLimits} (hL : ∀ k, L.threads k = 1024) (hs : L.shared = 49152) (h1 : 1 ≤ f) (h2 : f ≤ 1024)
    (S : Solver f R) (tol : R) (p : GpuALSParams R) (C : SpRows R) (m : Factors f R) (hC : C.length = m.user.length) :
    launchFit L tol p m.item.length C m = (alsFit S tol (cpuParams p) m.item.length C m).map fun m' => (m', false) := by
  rw [C63_fit ⟨h1, by rw [hL]; exact h2, by rw [hL]; exact h2, by omega⟩, C54_fit S tol p C m hC]

/-- **C63** (recalculation). -/
theorem C63_recalculate {L : GpuLimits} (h : Spec.AlsAllowed L f) (tol : R) (p : GpuALSParams R) (Y : List (Vec f R))
    (users cols : Nat) (C : SpRows R) :
    launchRecalculate L tol p Y users cols C false =
      (gpuRecalculateUser tol p (regularised (gram Y) p.regularization) Y users cols C).map fun X => (X, false) := by
  unfold launchRecalculate gpuRecalculateUser
  rw [launchYtY_ok h]
  simp only [bind, Except.bind]
  rw [launchLeastSquares_ok h]

/-- **C63** (loss, norms, BPR): each call returns what its kernel computes if the device allows the kernel. -/
theorem C63_others {L : GpuLimits} (h : Spec.AlsAllowed L f) (hl : f ≤ L.threads .loss) (hn : f ≤ L.threads .norms)
    (C : SpRows R) (cols : Nat) (X Y : List (Vec f R)) (reg : R) (norm : Vec f R → R) :
    launchLoss L 4 C cols X Y reg false = (calculateLoss C cols X Y reg).map (fun l => (l, false)) ∧
    launchNorms L 4 norm X false = .ok (X.map norm, false) ∧
    ∀ (S : Type) (epoch : S → S × (Nat × Nat)) (s : S) (n factors : Nat), factors + 1 ≤ L.threads .bpr →
      4 * (factors + 1) ≤ L.shared →
      launchBpr L (factors + 1) (factors + 1) n n epoch s false = .ok (epoch s, false) := by
  obtain ⟨h1, h2, h3, h4⟩ := h
  refine ⟨?_, ?_, ?_⟩
  · unfold launchLoss
    rw [launchYtY_ok ⟨h1, h2, h3, h4⟩]
    simp only [bind, Except.bind]
    rw [if_pos (by simp), gpuLaunch_ok (by unfold GpuLimits.accepts; simp; omega)]
  · unfold launchNorms
    rw [if_pos (by simp), gpuLaunch_ok (by unfold GpuLimits.accepts; simp; omega)]
    rfl
  · intro S epoch s n factors h5 h6
    unfold launchBpr
    rw [if_neg (by simp), if_neg (by simp), gpuLaunch_ok (by unfold GpuLimits.accepts; simp; omega)]
    rfl

/-! ## Where the work is not done and nothing is raised -/

theorem launchLeastSquares_fail {L : GpuLimits} (hf : L.threads .leastSquares < f) (itemsize : Nat)
    (hi : itemsize = 4 ∨ itemsize = 2) (tol : R) (steps : Nat) (G : Mat f R) {cols : Nat} {C : SpRows R}
    {X Y : List (Vec f R)} (hX : C.length ≤ X.length) (hY : cols ≤ Y.length) (pending : Bool) :
    launchLeastSquares L itemsize tol steps G cols C X Y pending = .ok (X, true) := by
  unfold launchLeastSquares
  rw [if_neg (by omega), if_neg (by omega), if_pos hi, gpuLaunch_fail (by unfold GpuLimits.accepts; simp; omega)]

theorem launchYtY_quiet {L : GpuLimits} (hf : f ≠ 0) (hb : L.blasSeesError = false) (reg : R) (Y : List (Vec f R))
    (pending : Bool) : ∃ g, launchYtY L reg Y pending = .ok g := by
  unfold launchYtY gpuLaunch
  rw [if_neg hf, if_neg (by simp [hb])]
  split
  · exact ⟨_, rfl⟩
  · exact ⟨_, rfl⟩

/-- For every data set, with more factors than the solver kernel may have threads, `fit` returns the initial factors.  (If cuBLAS
reports the error recorded earlier, the second call of `calculate_yty` raises instead.) -/
theorem C63_fit_untrained {L : GpuLimits} (hf : L.threads .leastSquares < f) (hb : L.blasSeesError = false) (tol : R)
    (p : GpuALSParams R) (cols : Nat) (C : SpRows R) (m : Factors f R) (hC : C.length = m.user.length)
    (hcols : cols = m.item.length) :
    ∃ pending, launchFit L tol p cols C m = .ok (m, pending) := by
  have hf0 : f ≠ 0 := by omega
  have step : ∀ b, launchIteration L tol p C.length cols C (transposeRows cols C) (m, b) = .ok (m, true) := by
    intro b
    unfold launchIteration
    obtain ⟨g, hg⟩ := launchYtY_quiet hf0 hb p.regularization m.item b
    simp only [bind, Except.bind]
    rw [hg]
    simp only
    rw [launchLeastSquares_fail hf 4 (Or.inl rfl) tol _ _ (by omega) (by omega)]
    simp only
    obtain ⟨g', hg'⟩ := launchYtY_quiet hf0 hb p.regularization m.user true
    rw [hg']
    simp only
    have ht : (transposeRows cols C).length = cols := by unfold transposeRows; simp
    rw [launchLeastSquares_fail hf 4 (Or.inl rfl) tol _ _ (by omega) (by omega)]
    rfl
  unfold launchFit
  have : ∀ n b, ∃ b', launchIterations L tol p C.length cols C (transposeRows cols C) n (m, b) = .ok (m, b') := by
    intro n
    induction n with
    | zero => exact fun b => ⟨b, rfl⟩
    | succ n ih =>
      intro b
      unfold launchIterations
      rw [step b]
      exact ih true
  exact this p.iterations false

/-- **C63** (exactly when).  For matching sizes the solver does its work exactly if the device has a thread per factor and 16
bytes of shared memory per factor, in both precisions; in all other cases it returns the factors it was given and the error
stays behind. -/
theorem C63_least_squares {L : GpuLimits} {itemsize : Nat} (hi : itemsize = 4 ∨ itemsize = 2) (tol : R) (steps : Nat) (G : Mat f R)
    {cols : Nat} {C : SpRows R} {X Y : List (Vec f R)} (hX : C.length ≤ X.length) (hY : cols ≤ Y.length) (pending : Bool) :
    launchLeastSquares L itemsize tol steps G cols C X Y pending =
      if 1 ≤ f ∧ f ≤ L.threads .leastSquares ∧ 16 * f ≤ L.shared then
        (gpuLeastSquares tol steps G cols C X Y).map fun X' => (X', pending)
      else .ok (X, true) := by
  unfold launchLeastSquares
  rw [if_neg (by omega), if_neg (by omega), if_pos hi]
  split
  · rw [gpuLaunch_ok (by unfold GpuLimits.accepts; simp; omega)]
  · rw [gpuLaunch_fail (by unfold GpuLimits.accepts; simp; omega)]

/-- **C63** (exactly when, loss).  Once the Gram matrix is there, the loss is computed exactly if the device has a thread and
`itemsize` bytes of shared memory per factor; otherwise 0 is returned. -/
theorem C63_loss {L : GpuLimits} {itemsize : Nat} (hi : itemsize = 4 ∨ itemsize = 2) (C : SpRows R) (cols : Nat)
    (X Y : List (Vec f R)) (reg : R) {G : Mat f R} {pending : Bool} (hG : launchYtY L 0 Y false = .ok (G, pending)) :
    launchLoss L itemsize C cols X Y reg false =
      if 1 ≤ f ∧ f ≤ L.threads .loss ∧ itemsize * f ≤ L.shared then
        (calculateLoss C cols X Y reg).map fun l => (l, pending)
      else .ok (0, true) := by
  unfold launchLoss
  simp only [bind, Except.bind]
  rw [hG]
  simp only
  rw [if_pos hi]
  split
  · rename_i h
    rw [gpuLaunch_ok (by unfold GpuLimits.accepts; exact decide_eq_true h)]
  · rename_i h
    rw [gpuLaunch_fail (by unfold GpuLimits.accepts; exact decide_eq_false h), zero_div]

/-- **C63** (regularisation).  If only the kernel adding the regularisation is refused, training goes on without it. -/
theorem C63_unregularised_violated {L : GpuLimits} (hf : L.threads .l2Regularize < f) (reg : R) (Y : List (Vec f R)) :
    launchYtY L reg Y false = .ok (gram Y, true) := by
  unfold launchYtY
  rw [if_neg (by omega), if_neg (by simp), gpuLaunch_fail (by unfold GpuLimits.accepts; simp; omega)]

/-- **C63** (no columns).  The norms of a matrix without columns: zeros are returned and an error stays behind that nobody sees,
or the next call of cuBLAS reports. -/
theorem C63_no_columns (L : GpuLimits) (norm : Vec 0 R → R) (X : List (Vec 0 R)) (itemsize : Nat)
    (hi : itemsize = 4 ∨ itemsize = 2) :
    launchNorms L itemsize norm X false = .ok (X.map fun _ => 0, true) := by
  unfold launchNorms
  rw [if_pos hi, gpuLaunch_fail (by unfold GpuLimits.accepts; simp)]

/-- A device with the limits of the hardware. -/
def cudaDevice : GpuLimits := ⟨fun _ => 1024, 49152, false⟩

/-- ALS with 1025 factors: a user and an item without interactions, whose factors training would set to zero, keep their random
values, and `fit` returns as if all were well. -/
theorem C63_fit_violated (p : GpuALSParams ℚ) (hp : p.iterations = 1) :
    (∃ pending, launchFit cudaDevice (1 / 10 ^ 20) p 1 [[]] (⟨[fun _ => 1], [fun _ => 1]⟩ : Factors 1025 ℚ) =
      .ok (⟨[fun _ => 1], [fun _ => 1]⟩, pending)) ∧
    gpuAlsFit (1 / 10 ^ 20) p 1 [[]] (⟨[fun _ => 1], [fun _ => 1]⟩ : Factors 1025 ℚ) = .ok ⟨[fun _ => 0], [fun _ => 0]⟩ := by
  refine ⟨C63_fit_untrained (by decide) rfl _ p 1 [[]] _ rfl rfl, ?_⟩
  unfold gpuAlsFit
  rw [hp]
  rfl

/-- `recalculate_user` with too many factors returns zeros whatever the user liked. -/
theorem C63_recalculate_violated {L : GpuLimits} (hf : L.threads .leastSquares < f) (tol : R) (p : GpuALSParams R)
    (Y : List (Vec f R)) (C : SpRows R) :
    ∃ pending, launchRecalculate L tol p Y C.length Y.length C false =
      .ok (List.replicate C.length fun _ => 0, pending) := by
  have hf0 : f ≠ 0 := by omega
  have hal : (applyAlpha p.alpha C).length = C.length := by
    unfold applyAlpha scaleRows; split <;> simp
  unfold launchRecalculate
  have hy : ∃ g, launchYtY L p.regularization Y false = .ok g := by
    unfold launchYtY gpuLaunch
    rw [if_neg hf0, if_neg (by simp)]
    split
    · exact ⟨_, rfl⟩
    · exact ⟨_, rfl⟩
  obtain ⟨g, hg⟩ := hy
  simp only [bind, Except.bind]
  rw [hg]
  simp only
  rw [launchLeastSquares_fail hf 4 (Or.inl rfl) tol _ _ (by rw [hal, List.length_replicate]) le_rfl]
  exact ⟨true, rfl⟩

/-- The other calls with too many factors: the loss is 0 whatever the factors, all norms are 0, and a BPR epoch changes nothing
and reports that no sample was ranked correctly and none skipped. -/
theorem C63_others_violated {L : GpuLimits} (hf : f ≠ 0) (hl : L.threads .loss < f) (hn : L.threads .norms < f)
    (C : SpRows R) (cols : Nat) (X Y : List (Vec f R)) (reg : R) (norm : Vec f R → R) :
    (∃ pending, launchLoss L 4 C cols X Y reg false = .ok (0, pending)) ∧
    launchNorms L 4 norm X false = .ok (X.map fun _ => 0, true) ∧
    ∀ (S : Type) (epoch : S → S × (Nat × Nat)) (s : S) (n factors : Nat), L.threads .bpr ≤ factors →
      launchBpr L (factors + 1) (factors + 1) n n epoch s false = .ok ((s, (0, 0)), true) := by
  refine ⟨?_, ?_, ?_⟩
  · have hy : ∃ g, launchYtY L 0 Y false = .ok g := by
      unfold launchYtY gpuLaunch
      rw [if_neg hf, if_neg (by simp)]
      split
      · exact ⟨_, rfl⟩
      · exact ⟨_, rfl⟩
    obtain ⟨g, hg⟩ := hy
    unfold launchLoss
    simp only [bind, Except.bind]
    rw [hg]
    simp only
    rw [if_pos (by simp), gpuLaunch_fail (by unfold GpuLimits.accepts; simp; omega), zero_div]
    exact ⟨true, rfl⟩
  · unfold launchNorms
    rw [if_pos (by simp), gpuLaunch_fail (by unfold GpuLimits.accepts; simp; omega)]
  · intro S epoch s n factors h
    unfold launchBpr
    rw [if_neg (by simp), if_neg (by simp), gpuLaunch_fail (by unfold GpuLimits.accepts; simp; omega)]

/-- On real devices the last two happen with 1024 factors in BPR already. -/
example : launchBpr cudaDevice 1025 1025 7 7 (fun s : Nat => (s + 1, (5, 2))) 3 false = .ok ((3, (0, 0)), true) ∧
    launchBpr cudaDevice 1024 1024 7 7 (fun s : Nat => (s + 1, (5, 2))) 3 false = .ok ((4, (5, 2)), false) := by
  decide

/-! ## Shared memory -/

/-- **C63** (scratch memory).  In every kernel that calls `dot`, on a block the device accepts, all words that `dot` touches lie
in the allocation — in half precision the loss kernel needs two factors. -/
theorem C63_scratch (k : GpuKernel) (hk : k ≠ .l2Regularize) (itemsize : Nat) (hi : itemsize = 4 ∨ itemsize = 2)
    (h1 : 1 ≤ f) (h2 : f ≤ 1024) (hh : k = .loss → itemsize = 2 → 2 ≤ f) (i : DotInstr) (w : Fin (numWarps f)) :
    ∀ a ∈ dotTouches f (w, i), 4 * ((scratchOf k itemsize f).1 + a) + 4 ≤ (scratchOf k itemsize f).2 := by
  have hw := w.isLt
  have ha : ∀ a ∈ dotTouches f (w, i), a < numWarps f := by
    intro a ha
    cases i <;> simp [dotTouches] at ha <;> omega
  intro a h
  have := ha a h
  unfold numWarps at this
  cases k with
  | l2Regularize => exact absurd rfl hk
  | leastSquares => simp only [scratchOf]; omega
  | loss =>
    simp only [scratchOf]
    rcases hi with rfl | rfl
    · omega
    · have := hh rfl rfl
      omega
  | bpr => simp only [scratchOf]; omega
  | norms => simp only [scratchOf]; omega

/-- The ALS kernel keeps the `f` words of `P` in front of its scratch words, and its allocation is twice what both need. -/
theorem C63_scratch_after_P (itemsize : Nat) : (scratchOf .leastSquares itemsize f).1 = f ∧
    (scratchOf .leastSquares itemsize f).2 = 2 * (4 * ((scratchOf .leastSquares itemsize f).1 + f)) := by
  refine ⟨rfl, ?_⟩
  show 8 * (2 * f) = 2 * (4 * (f + f))
  omega

/-- With one factor in half precision the loss kernel has 2 bytes of scratch memory and stores 4. -/
theorem C63_scratch_violated : ∃ a ∈ dotTouches 1 (0, .store), (scratchOf .loss 2 1).2 < 4 * ((scratchOf .loss 2 1).1 + a) + 4 :=
  ⟨0, by decide, by decide⟩

/-! ## Examples -/

/-- Training that works: one user, one item, one factor. -/
example : launchFit cudaDevice (1 / 10 ^ 20) ⟨1, 1, 3, 1⟩ 1 [[(0, 2)]] (⟨[fun _ => 1], [fun _ => 1]⟩ : Factors 1 ℚ) =
    (gpuAlsFit (1 / 10 ^ 20) ⟨1, 1, 3, 1⟩ 1 [[(0, 2)]] (⟨[fun _ => 1], [fun _ => 1]⟩ : Factors 1 ℚ)).map fun m => (m, false) :=
  C63_fit ⟨by decide, by decide, by decide, by decide⟩ _ _ _ _ _

/-- A matrix of doubles is refused. -/
example : launchLeastSquares cudaDevice 8 (1 / 10 ^ 20) 3 (fun _ _ => 2) 1 [[(0, 2)]] [fun _ : Fin 1 => (1 : ℚ)] [fun _ => 1] false =
    .error .valueError := by
  simp [launchLeastSquares]

end Implicit
