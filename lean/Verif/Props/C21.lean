import Verif.Model.FitCheck

/-!
# C21 — a training run that returns has no NaN factors
-/

namespace Implicit

variable {V : Type} {f : Nat}

/-- Some entry of the matrix is NaN. -/
def Spec.HasNaN (isNaN : V → Bool) (X : List (Fin f → V)) : Prop :=
  ∃ i, ∃ h : i < X.length, ∃ j, isNaN (X[i] j) = true

theorem anyNaN_iff (isNaN : V → Bool) (X : List (Vec f V)) :
    anyNaN isNaN X = true ↔ Spec.HasNaN isNaN X := by
  unfold anyNaN Spec.HasNaN
  simp only [List.any_eq_true, List.mem_finRange, true_and]
  constructor
  · rintro ⟨x, hx, j, hj⟩
    obtain ⟨i, h, rfl⟩ := List.mem_iff_getElem.mp hx
    exact ⟨i, h, j, hj⟩
  · rintro ⟨i, h, j, hj⟩
    exact ⟨X[i], List.getElem_mem h, j, hj⟩

/-- **C21** (CPU): training that returns has no NaN anywhere, whatever the epochs compute. -/
theorem C21_cpu_partial (isNaN : V → Bool) (train : Nat → Factors f V → Except Err (Factors f V))
    (epochs : Nat) (init m : Factors f V) (h : cpuFit isNaN train epochs init = .ok m) :
    ¬ Spec.HasNaN isNaN m.user ∧ ¬ Spec.HasNaN isNaN m.item := by
  unfold cpuFit at h
  cases ht : trainEpochs train 0 epochs init with
  | error e => rw [ht] at h; cases h
  | ok m' =>
    rw [ht] at h
    simp only [bind, Except.bind, checkFitErrors, pure, Except.pure] at h
    by_cases hn : (anyNaN isNaN m'.user || anyNaN isNaN m'.item) = true
    · rw [if_pos hn] at h; cases h
    · rw [if_neg hn] at h
      cases h
      rw [Bool.or_eq_true, not_or] at hn
      rw [← anyNaN_iff, ← anyNaN_iff]
      exact hn

/-- **C21** (CPU): if the trained factors contain a NaN, `ModelFitError` is raised, and it is raised
only then (unless an epoch raises it). -/
theorem C21_cpu_raises (isNaN : V → Bool) (train : Nat → Factors f V → Except Err (Factors f V))
    (epochs : Nat) (init m : Factors f V) (h : trainEpochs train 0 epochs init = .ok m) :
    cpuFit isNaN train epochs init = .error .modelFitError ↔
      Spec.HasNaN isNaN m.user ∨ Spec.HasNaN isNaN m.item := by
  unfold cpuFit
  rw [h, ← anyNaN_iff, ← anyNaN_iff, ← Bool.or_eq_true]
  simp only [bind, Except.bind, checkFitErrors, pure, Except.pure]
  by_cases hn : (anyNaN isNaN m.user || anyNaN isNaN m.item) = true
  · simp [hn]
  · simp [hn]

/-- `m` is what the epochs `0, …, epochs - 1`, one after the other, make of `init`. -/
def Spec.TrainsTo (train : Nat → Factors f V → Except Err (Factors f V)) (epochs : Nat) (init m : Factors f V) : Prop :=
  ∃ states : Nat → Factors f V, states 0 = init ∧ states epochs = m ∧
    ∀ i < epochs, train i (states i) = .ok (states (i + 1))

theorem trainEpochs_iff (train : Nat → Factors f V → Except Err (Factors f V)) (i n : Nat) (init m : Factors f V) :
    trainEpochs train i n init = .ok m ↔ ∃ states : Nat → Factors f V, states 0 = init ∧ states n = m ∧
      ∀ j < n, train (i + j) (states j) = .ok (states (j + 1)) := by
  induction n generalizing i init with
  | zero =>
    constructor
    · intro h
      exact ⟨fun _ => init, rfl, Except.ok.inj h, fun j hj => absurd hj (Nat.not_lt_zero j)⟩
    · rintro ⟨states, h0, hn, -⟩
      rw [← h0, hn]; rfl
  | succ n ih =>
    constructor
    · intro h
      cases ht : train i init with
      | error e => simp [trainEpochs, ht, bind, Except.bind] at h
      | ok m' =>
        have h : trainEpochs train (i + 1) n m' = .ok m := by simpa [trainEpochs, ht, bind, Except.bind] using h
        obtain ⟨states, h0, hn, hs⟩ := (ih (i + 1) m').mp h
        refine ⟨fun j => if j = 0 then init else states (j - 1), rfl, by simpa using hn, fun j hj => ?_⟩
        cases j with
        | zero => simpa [h0] using ht
        | succ j =>
          have := hs j (by omega)
          simpa [Nat.add_assoc, Nat.add_comm 1 j] using this
    · rintro ⟨states, h0, hn, hs⟩
      have h1 := hs 0 (Nat.succ_pos n)
      rw [h0, Nat.add_zero] at h1
      have : trainEpochs train (i + 1) n (states 1) = .ok m :=
        (ih (i + 1) _).mpr ⟨fun j => states (j + 1), rfl, hn, fun j hj => by
          have := hs (j + 1) (by omega)
          rwa [show i + (j + 1) = i + 1 + j by omega] at this⟩
      simp [trainEpochs, h1, bind, Except.bind, this]

/-- **C21** (CPU), exactly: training returns the outcome of its epochs if that has no NaN, and nothing else. -/
theorem C21_cpu_exact (isNaN : V → Bool) (train : Nat → Factors f V → Except Err (Factors f V))
    (epochs : Nat) (init m : Factors f V) :
    cpuFit isNaN train epochs init = .ok m ↔
      Spec.TrainsTo train epochs init m ∧ ¬ Spec.HasNaN isNaN m.user ∧ ¬ Spec.HasNaN isNaN m.item := by
  have key := trainEpochs_iff train 0 epochs init
  simp only [Nat.zero_add] at key
  constructor
  · intro h
    refine ⟨(key m).mp ?_, C21_cpu_partial isNaN train epochs init m h⟩
    unfold cpuFit at h
    cases ht : trainEpochs train 0 epochs init with
    | error e => rw [ht] at h; cases h
    | ok m' =>
      rw [ht] at h
      simp only [bind, Except.bind, checkFitErrors, pure, Except.pure] at h
      split_ifs at h
      cases h
      rfl
  · rintro ⟨ht, hu, hi⟩
    have ht := (key m).mpr ht
    rw [← anyNaN_iff] at hu hi
    simp [cpuFit, ht, bind, Except.bind, checkFitErrors, hu, hi, pure, Except.pure]

/-- The GPU models return the outcome of their epochs. -/
theorem C21_gpu_exact (train : Nat → Factors f V → Except Err (Factors f V))
    (epochs : Nat) (init m : Factors f V) :
    gpuFit train epochs init = .ok m ↔ Spec.TrainsTo train epochs init m := by
  have key := trainEpochs_iff train 0 epochs init m
  simp only [Nat.zero_add] at key
  exact key

/-- **C21** for CPU ALS with an arbitrary solver. -/
theorem C21_als (isNaN : V → Bool) (solver : SweepFn f V) (Cui Ciu : SpRows V) (reg : V)
    (iterations : Nat) (init m : Factors f V)
    (h : cpuFit isNaN (fun _ => alsIteration solver Cui Ciu reg) iterations init = .ok m) :
    ¬ Spec.HasNaN isNaN m.user ∧ ¬ Spec.HasNaN isNaN m.item :=
  C21_cpu_partial isNaN _ iterations init m h

/-- **C21 is violated** by the GPU models: an epoch that produces a NaN (here `none`) goes
unnoticed, where the CPU version raises. -/
theorem C21_gpu_violated :
    let train : Nat → Factors 1 (Option Rat) → Except Err (Factors 1 (Option Rat)) :=
      fun _ m => .ok ⟨[fun _ => none], m.item⟩
    let init : Factors 1 (Option Rat) := ⟨[fun _ => some 1], [fun _ => some 1]⟩
    (∃ m, gpuFit train 1 init = .ok m ∧ Spec.HasNaN Option.isNone m.user) ∧
      cpuFit Option.isNone train 1 init = .error .modelFitError :=
  ⟨⟨_, rfl, 0, Nat.zero_lt_one, 0, rfl⟩, rfl⟩

/-- Epochs that add their number to the user factor. -/
example : cpuFit (f := 1) Option.isNone (fun i m => .ok ⟨m.user.map fun x j => (x j).map (· + (i : Rat)), m.item⟩) 4
    ⟨[fun _ => some (1 : Rat)], [fun _ => some 2]⟩ = .ok ⟨[fun _ => some 7], [fun _ => some 2]⟩ := by
  simp [cpuFit, trainEpochs, checkFitErrors, anyNaN, bind, Except.bind, pure, Except.pure, List.finRange]
  funext _
  exact congrArg some (by decide +kernel)

/-- A run without NaN returns. -/
example : cpuFit (f := 1) Option.isNone (fun _ m => .ok ⟨m.item, m.user⟩) 3
    ⟨[fun _ => some (1 : Rat)], [fun _ => some 2]⟩ = .ok ⟨[fun _ => some 2], [fun _ => some 1]⟩ := rfl

end Implicit
