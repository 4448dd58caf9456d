import Verif.Lemmas.Factory
/-!
# C57: the factory functions build the model the caller asked for

Every call that fits the documented parameter list builds an object of the class `use_gpu` selects, each
hyper-parameter of which has the value meant; every other call raises `TypeError`.
-/

namespace Implicit

open Spec (Call)

/-! ## Documentation -/

/-- Parameters of `implicit.als.AlternatingLeastSquares`. -/
def alsNames : List PName :=
  [.factors, .regularization, .alpha, .dtype, .use_native, .use_cg, .use_gpu, .iterations,
    .calculate_training_loss, .num_threads, .random_state]

/-- Their defaults. -/
def alsArgDefault (cuda : Bool) : PName → ArgVal
  | .factors => .num 100
  | .regularization => .num (1 / 100)
  | .alpha => .num 1
  | .dtype => .float32
  | .use_native => .bool true
  | .use_cg => .bool true
  | .use_gpu => .bool cuda
  | .iterations => .num 15
  | .calculate_training_loss => .bool false
  | .num_threads => .num 0
  | _ => .none

/-- Parameters of `implicit.bpr.BayesianPersonalizedRanking`. -/
def bprNames : List PName :=
  [.factors, .learning_rate, .regularization, .dtype, .iterations, .use_gpu, .num_threads,
    .verify_negative_samples, .random_state]

def bprArgDefault (cuda : Bool) : PName → ArgVal
  | .factors => .num 100
  | .learning_rate => .num (1 / 100)
  | .regularization => .num (1 / 100)
  | .dtype => .float32
  | .iterations => .num 100
  | .use_gpu => .bool cuda
  | .num_threads => .num 0
  | .verify_negative_samples => .bool true
  | _ => .none

/-- Parameters of `implicit.lmf.LogisticMatrixFactorization`. -/
def lmfNames : List PName :=
  [.factors, .learning_rate, .regularization, .dtype, .iterations, .neg_prop, .use_gpu, .num_threads, .random_state]

def lmfArgDefault : PName → ArgVal
  | .factors => .num 30
  | .learning_rate => .num 1
  | .regularization => .num (3 / 5)
  | .dtype => .float32
  | .iterations => .num 30
  | .neg_prop => .num 30
  | .use_gpu => .bool false
  | .num_threads => .num 0
  | _ => .none

/-- The object `m` is a model of class `cls`, and its attributes named in `ps` have the values `v`. -/
def BuiltAs (cls : PyClass) (ps : List PName) (v : PName → ArgVal) : PyModel → Prop
  | .factor c attrs => c = cls ∧ ∀ p ∈ ps, attrs.lookup p = some (v p)
  | .ann _ _ _ => False

/-- The attributes of a GPU ALS model. -/
def gpuAlsNames : List PName :=
  [.factors, .regularization, .alpha, .dtype, .iterations, .calculate_training_loss, .random_state]

/-- What a call of the ALS factory must do, given the meant values. -/
structure AlsOutcome (env : FactoryEnv) (v : PName → ArgVal) (r : Except Err PyModel) : Prop where
  cpu : truthyVal env (v .use_gpu) = false → ∀ dt, env.npDtype (v .dtype) = .ok dt →
    ∃ m, r = .ok m ∧ BuiltAs .cpuAls [.dtype] (fun _ => dt) m ∧
      BuiltAs .cpuAls (alsNames.filter fun p => p ∉ [.use_gpu, .dtype]) v m
  badDtype : truthyVal env (v .use_gpu) = false → ∀ e, env.npDtype (v .dtype) = .error e → r = .error e
  gpu : truthyVal env (v .use_gpu) = true → env.hasCuda = true → ∃ m, r = .ok m ∧ BuiltAs .gpuAls gpuAlsNames v m
  noCuda : truthyVal env (v .use_gpu) = true → env.hasCuda = false → r = .error .valueError

theorem newGpuAls_eq (env : FactoryEnv) (a b c d e f g : ArgVal) :
    newGpuAls env ⟨[a, b, c], [(.dtype, d), (.iterations, e), (.calculate_training_loss, f), (.random_state, g)]⟩ =
      if env.hasCuda = false then .error .valueError else
      .ok (.factor .gpuAls [(.factors, a), (.regularization, b), (.alpha, c), (.dtype, d), (.iterations, e),
        (.calculate_training_loss, f), (.random_state, g)]) := by
  unfold newGpuAls
  have : pyBind gpuAlsSig ⟨[a, b, c], [(.dtype, d), (.iterations, e), (.calculate_training_loss, f),
      (.random_state, g)]⟩ = .ok ⟨[(.factors, a), (.regularization, b), (.alpha, c), (.dtype, d), (.iterations, e),
        (.calculate_training_loss, f), (.random_state, g)], [], []⟩ := rfl
  rw [this]
  cases env.hasCuda <;> rfl

theorem newCpuAls_eq (env : FactoryEnv) (a b c d e f g h i j : ArgVal) :
    newCpuAls env ⟨[a, b, c, d, e, f, g, h, i, j], []⟩ =
      (env.npDtype d).map fun dt => .factor .cpuAls [(.num_threads, i), (.factors, a), (.regularization, b),
        (.alpha, c), (.dtype, dt), (.use_native, e), (.use_cg, f), (.iterations, g),
        (.calculate_training_loss, h), (.random_state, j)] := by
  unfold newCpuAls
  have : pyBind cpuAlsSig ⟨[a, b, c, d, e, f, g, h, i, j], []⟩ = .ok ⟨[(.factors, a), (.regularization, b),
      (.alpha, c), (.dtype, d), (.use_native, e), (.use_cg, f), (.iterations, g), (.calculate_training_loss, h),
      (.num_threads, i), (.random_state, j)], [], []⟩ := rfl
  rw [this]
  simp only [bind, Except.bind, pure, Except.pure]
  have hd : (BoundArgs.get ⟨[(.factors, a), (.regularization, b),
      (.alpha, c), (.dtype, d), (.use_native, e), (.use_cg, f), (.iterations, g), (.calculate_training_loss, h),
      (.num_threads, i), (.random_state, j)], [], []⟩ .dtype) = d := rfl
  rw [hd]
  cases env.npDtype d <;> rfl

/-- **C57**: `implicit.als.AlternatingLeastSquares`. -/
theorem C57_als (env : FactoryEnv) (c : Call PName ArgVal) :
    (c.Fits alsNames 11 → ∀ v : PName → ArgVal, (∀ p ∈ alsNames, c.Means alsNames (alsArgDefault env.hasCuda) p (v p)) →
      AlsOutcome env v (alsFactory env c)) ∧
    (¬ c.Fits alsNames 11 → alsFactory env c = .error .typeError) := by
  have hsig : alsFactorySig env = ⟨withDefaults (alsArgDefault env.hasCuda) alsNames, [], false, false⟩ := rfl
  have hnd : alsNames.Nodup := by decide
  obtain ⟨h1, h2⟩ := pyBind_plain (alsArgDefault env.hasCuda) hnd c
  constructor
  · intro hc v hv
    obtain ⟨b, hb, hget⟩ := h1 hc
    have hg : ∀ p ∈ alsNames, b.get p = v p := fun p hp => hget p hp _ (hv p hp)
    have hr : alsFactory env c = if truthyVal env (v .use_gpu) then
        newGpuAls env ⟨[v .factors, v .regularization, v .alpha],
          [(.dtype, v .dtype), (.iterations, v .iterations),
            (.calculate_training_loss, v .calculate_training_loss), (.random_state, v .random_state)]⟩
      else
        newCpuAls env ⟨[v .factors, v .regularization, v .alpha, v .dtype, v .use_native,
          v .use_cg, v .iterations, v .calculate_training_loss, v .num_threads, v .random_state], []⟩ := by
      unfold alsFactory
      rw [hsig, hb]
      simp only [bind, Except.bind]
      simp only [hg .factors (by decide), hg .regularization (by decide), hg .alpha (by decide),
        hg .dtype (by decide), hg .use_native (by decide), hg .use_cg (by decide), hg .use_gpu (by decide),
        hg .iterations (by decide), hg .calculate_training_loss (by decide), hg .num_threads (by decide),
        hg .random_state (by decide)]
    rw [newGpuAls_eq, newCpuAls_eq] at hr
    refine ⟨?_, ?_, ?_, ?_⟩
    · intro h dt hdt
      rw [hr, h, hdt]
      refine ⟨_, rfl, ⟨rfl, ?_⟩, ⟨rfl, ?_⟩⟩
      · intro p hp; rw [List.mem_singleton.mp hp]; rfl
      · intro p hp
        have : p ∈ [PName.factors, .regularization, .alpha, .use_native, .use_cg, .iterations,
          .calculate_training_loss, .num_threads, .random_state] := hp
        simp only [List.mem_cons, List.not_mem_nil, or_false] at this
        rcases this with rfl | rfl | rfl | rfl | rfl | rfl | rfl | rfl | rfl <;> rfl
    · intro h e he
      rw [hr, h, he]
      rfl
    · intro h hcuda
      rw [hr, h, hcuda]
      refine ⟨_, rfl, rfl, ?_⟩
      intro p hp
      simp only [gpuAlsNames, List.mem_cons, List.not_mem_nil, or_false] at hp
      rcases hp with rfl | rfl | rfl | rfl | rfl | rfl | rfl <;> rfl
    · intro h hcuda
      rw [hr, h, hcuda]
      rfl
  · intro hc
    unfold alsFactory
    rw [hsig, h2 hc]
    rfl

/-! ## BPR and LMF -/

/-- The attributes of a GPU BPR model; `dtype` is not among them, see `C57_gpu_bpr_dtype_violated`. -/
def gpuBprNames : List PName :=
  [.factors, .learning_rate, .regularization, .iterations, .verify_negative_samples, .random_state]

/-- What a call of the BPR factory must do, given the meant values. -/
structure BprOutcome (env : FactoryEnv) (v : PName → ArgVal) (r : Except Err PyModel) : Prop where
  cpu : truthyVal env (v .use_gpu) = false → ∀ dt, env.npDtype (v .dtype) = .ok dt →
    ∃ m, r = .ok m ∧ BuiltAs .cpuBpr [.dtype] (fun _ => dt) m ∧
      BuiltAs .cpuBpr (bprNames.filter fun p => p ∉ [.use_gpu, .dtype]) v m
  badDtype : truthyVal env (v .use_gpu) = false → ∀ e, env.npDtype (v .dtype) = .error e → r = .error e
  gpu : truthyVal env (v .use_gpu) = true → env.hasCuda = true → ∃ m, r = .ok m ∧ BuiltAs .gpuBpr gpuBprNames v m
  noCuda : truthyVal env (v .use_gpu) = true → env.hasCuda = false → r = .error .valueError

theorem newGpuBpr_eq (env : FactoryEnv) (a b c d e f : ArgVal) :
    newGpuBpr env ⟨[a, b, c], [(.iterations, d), (.verify_negative_samples, e), (.random_state, f)]⟩ =
      if env.hasCuda = false then .error .valueError else
      .ok (.factor .gpuBpr [(.factors, a), (.learning_rate, b), (.iterations, d), (.regularization, c),
        (.verify_negative_samples, e), (.random_state, f)]) := by
  unfold newGpuBpr
  have : pyBind gpuBprSig ⟨[a, b, c], [(.iterations, d), (.verify_negative_samples, e), (.random_state, f)]⟩ =
      .ok ⟨[(.factors, a), (.learning_rate, b), (.regularization, c), (.dtype, .float32), (.iterations, d),
        (.verify_negative_samples, e), (.random_state, f)], [], []⟩ := rfl
  rw [this]
  cases env.hasCuda <;> rfl

theorem newCpuBpr_eq (env : FactoryEnv) (a b c d e f g h : ArgVal) :
    newCpuBpr env ⟨[a, b, c], [(.dtype, d), (.num_threads, e), (.iterations, f), (.verify_negative_samples, g),
        (.random_state, h)]⟩ =
      (env.npDtype d).map fun dt => .factor .cpuBpr [(.num_threads, e), (.factors, a), (.learning_rate, b),
        (.iterations, f), (.regularization, c), (.dtype, dt), (.verify_negative_samples, g), (.random_state, h)] := by
  unfold newCpuBpr
  have : pyBind cpuBprSig ⟨[a, b, c], [(.dtype, d), (.num_threads, e), (.iterations, f),
      (.verify_negative_samples, g), (.random_state, h)]⟩ =
      .ok ⟨[(.factors, a), (.learning_rate, b), (.regularization, c), (.dtype, d), (.iterations, f),
        (.num_threads, e), (.verify_negative_samples, g), (.random_state, h)], [], []⟩ := rfl
  rw [this]
  simp only [bind, Except.bind, pure, Except.pure]
  have hd : (BoundArgs.get ⟨[(.factors, a), (.learning_rate, b), (.regularization, c), (.dtype, d), (.iterations, f),
        (.num_threads, e), (.verify_negative_samples, g), (.random_state, h)], [], []⟩ .dtype) = d := rfl
  rw [hd]
  cases env.npDtype d <;> rfl

/-- **C57**: `implicit.bpr.BayesianPersonalizedRanking`. -/
theorem C57_bpr_partial (env : FactoryEnv) (c : Call PName ArgVal) :
    (c.Fits bprNames 9 → ∀ v : PName → ArgVal, (∀ p ∈ bprNames, c.Means bprNames (bprArgDefault env.hasCuda) p (v p)) →
      BprOutcome env v (bprFactory env c)) ∧
    (¬ c.Fits bprNames 9 → bprFactory env c = .error .typeError) := by
  have hsig : bprFactorySig env = ⟨withDefaults (bprArgDefault env.hasCuda) bprNames, [], false, false⟩ := rfl
  have hnd : bprNames.Nodup := by decide
  obtain ⟨h1, h2⟩ := pyBind_plain (bprArgDefault env.hasCuda) hnd c
  constructor
  · intro hc v hv
    obtain ⟨b, hb, hget⟩ := h1 hc
    have hg : ∀ p ∈ bprNames, b.get p = v p := fun p hp => hget p hp _ (hv p hp)
    have hr : bprFactory env c = if truthyVal env (v .use_gpu) then
        newGpuBpr env ⟨[v .factors, v .learning_rate, v .regularization],
          [(.iterations, v .iterations), (.verify_negative_samples, v .verify_negative_samples),
            (.random_state, v .random_state)]⟩
      else
        newCpuBpr env ⟨[v .factors, v .learning_rate, v .regularization],
          [(.dtype, v .dtype), (.num_threads, v .num_threads), (.iterations, v .iterations),
            (.verify_negative_samples, v .verify_negative_samples), (.random_state, v .random_state)]⟩ := by
      unfold bprFactory
      rw [hsig, hb]
      simp only [bind, Except.bind]
      simp only [hg .factors (by decide), hg .regularization (by decide), hg .learning_rate (by decide),
        hg .dtype (by decide), hg .use_gpu (by decide), hg .verify_negative_samples (by decide),
        hg .iterations (by decide), hg .num_threads (by decide), hg .random_state (by decide)]
    rw [newGpuBpr_eq, newCpuBpr_eq] at hr
    refine ⟨?_, ?_, ?_, ?_⟩
    · intro h dt hdt
      rw [hr, h, hdt]
      refine ⟨_, rfl, ⟨rfl, ?_⟩, ⟨rfl, ?_⟩⟩
      · intro p hp; rw [List.mem_singleton.mp hp]; rfl
      · intro p hp
        have : p ∈ [PName.factors, .learning_rate, .regularization, .iterations, .num_threads,
          .verify_negative_samples, .random_state] := hp
        simp only [List.mem_cons, List.not_mem_nil, or_false] at this
        rcases this with rfl | rfl | rfl | rfl | rfl | rfl | rfl <;> rfl
    · intro h e he
      rw [hr, h, he]
      rfl
    · intro h hcuda
      rw [hr, h, hcuda]
      refine ⟨_, rfl, rfl, ?_⟩
      intro p hp
      simp only [gpuBprNames, List.mem_cons, List.not_mem_nil, or_false] at hp
      rcases hp with rfl | rfl | rfl | rfl | rfl | rfl <;> rfl
    · intro h hcuda
      rw [hr, h, hcuda]
      rfl
  · intro hc
    unfold bprFactory
    rw [hsig, h2 hc]
    rfl

/-- What a call of the LMF factory must do, given the meant values. -/
structure LmfOutcome (env : FactoryEnv) (v : PName → ArgVal) (r : Except Err PyModel) : Prop where
  cpu : truthyVal env (v .use_gpu) = false → ∀ dt, env.npDtype (v .dtype) = .ok dt →
    ∃ m, r = .ok m ∧ BuiltAs .cpuLmf [.dtype] (fun _ => dt) m ∧
      BuiltAs .cpuLmf (lmfNames.filter fun p => p ∉ [.use_gpu, .dtype]) v m
  badDtype : truthyVal env (v .use_gpu) = false → ∀ e, env.npDtype (v .dtype) = .error e → r = .error e
  gpu : truthyVal env (v .use_gpu) = true → r = .error .notImplemented

theorem newCpuLmf_eq (env : FactoryEnv) (a b c d e f g h : ArgVal) :
    newCpuLmf env ⟨[a, b, c], [(.dtype, d), (.iterations, e), (.neg_prop, f), (.num_threads, g),
        (.random_state, h)]⟩ =
      (env.npDtype d).map fun dt => .factor .cpuLmf [(.num_threads, g), (.factors, a), (.learning_rate, b),
        (.iterations, e), (.regularization, c), (.dtype, dt), (.neg_prop, f), (.random_state, h)] := by
  unfold newCpuLmf
  have : pyBind cpuLmfSig ⟨[a, b, c], [(.dtype, d), (.iterations, e), (.neg_prop, f), (.num_threads, g),
      (.random_state, h)]⟩ =
      .ok ⟨[(.factors, a), (.learning_rate, b), (.regularization, c), (.dtype, d), (.iterations, e),
        (.neg_prop, f), (.num_threads, g), (.random_state, h)], [], []⟩ := rfl
  rw [this]
  simp only [bind, Except.bind, pure, Except.pure]
  have hd : (BoundArgs.get ⟨[(.factors, a), (.learning_rate, b), (.regularization, c), (.dtype, d), (.iterations, e),
        (.neg_prop, f), (.num_threads, g), (.random_state, h)], [], []⟩ .dtype) = d := rfl
  rw [hd]
  cases env.npDtype d <;> rfl

/-- **C57**: `implicit.lmf.LogisticMatrixFactorization`. -/
theorem C57_lmf (env : FactoryEnv) (c : Call PName ArgVal) :
    (c.Fits lmfNames 9 → ∀ v : PName → ArgVal, (∀ p ∈ lmfNames, c.Means lmfNames lmfArgDefault p (v p)) →
      LmfOutcome env v (lmfFactory env c)) ∧
    (¬ c.Fits lmfNames 9 → lmfFactory env c = .error .typeError) := by
  have hsig : lmfFactorySig = ⟨withDefaults lmfArgDefault lmfNames, [], false, false⟩ := rfl
  have hnd : lmfNames.Nodup := by decide
  obtain ⟨h1, h2⟩ := pyBind_plain lmfArgDefault hnd c
  constructor
  · intro hc v hv
    obtain ⟨b, hb, hget⟩ := h1 hc
    have hg : ∀ p ∈ lmfNames, b.get p = v p := fun p hp => hget p hp _ (hv p hp)
    have hr : lmfFactory env c = if truthyVal env (v .use_gpu) then .error .notImplemented
      else
        newCpuLmf env ⟨[v .factors, v .learning_rate, v .regularization],
          [(.dtype, v .dtype), (.iterations, v .iterations), (.neg_prop, v .neg_prop),
            (.num_threads, v .num_threads), (.random_state, v .random_state)]⟩ := by
      unfold lmfFactory
      rw [hsig, hb]
      simp only [bind, Except.bind]
      simp only [hg .factors (by decide), hg .regularization (by decide), hg .learning_rate (by decide),
        hg .dtype (by decide), hg .use_gpu (by decide), hg .neg_prop (by decide),
        hg .iterations (by decide), hg .num_threads (by decide), hg .random_state (by decide)]
      rfl
    rw [newCpuLmf_eq] at hr
    refine ⟨?_, ?_, ?_⟩
    · intro h dt hdt
      rw [hr, h, hdt]
      refine ⟨_, rfl, ⟨rfl, ?_⟩, ⟨rfl, ?_⟩⟩
      · intro p hp; rw [List.mem_singleton.mp hp]; rfl
      · intro p hp
        have : p ∈ [PName.factors, .learning_rate, .regularization, .iterations, .neg_prop, .num_threads,
          .random_state] := hp
        simp only [List.mem_cons, List.not_mem_nil, or_false] at this
        rcases this with rfl | rfl | rfl | rfl | rfl | rfl | rfl <;> rfl
    · intro h e he
      rw [hr, h, he]
      rfl
    · intro h
      rw [hr, h]
      rfl
  · intro hc
    unfold lmfFactory
    rw [hsig, h2 hc]
    rfl

/-! ## The classes themselves -/

/-- Parameters of the classes, in order. -/
def cpuAlsParams : List PName := [.factors, .regularization, .alpha, .dtype, .use_native, .use_cg, .iterations, .calculate_training_loss, .num_threads, .random_state]

def cpuBprParams : List PName := [.factors, .learning_rate, .regularization, .dtype, .iterations, .num_threads, .verify_negative_samples, .random_state]

def gpuBprParams : List PName := [.factors, .learning_rate, .regularization, .dtype, .iterations, .verify_negative_samples, .random_state]

def cpuLmfParams : List PName := [.factors, .learning_rate, .regularization, .dtype, .iterations, .neg_prop, .num_threads, .random_state]

/-- The GPU class learns 64 factors by default, the factory 100. -/
def gpuAlsClassDefault (p : PName) : ArgVal := if p = .factors then .num 64 else alsArgDefault true p

/-- **C57**: `implicit.gpu.als.AlternatingLeastSquares`, called directly. -/
theorem C57_gpu_als_class (env : FactoryEnv) (c : Call PName ArgVal) :
    (c.Fits gpuAlsNames 7 → ∀ v : PName → ArgVal, (∀ p ∈ gpuAlsNames, c.Means gpuAlsNames gpuAlsClassDefault p (v p)) →
      (env.hasCuda = false → newGpuAls env c = .error .valueError) ∧
      (env.hasCuda = true → ∃ m, newGpuAls env c = .ok m ∧ BuiltAs .gpuAls [PName.factors, .regularization, .alpha, .dtype, .iterations, .calculate_training_loss, .random_state] v m)) ∧
    (¬ c.Fits gpuAlsNames 7 → newGpuAls env c = .error .typeError) := by
  have hsig : gpuAlsSig = ⟨withDefaults (gpuAlsClassDefault) gpuAlsNames, [], false, false⟩ := rfl
  obtain ⟨h1, h2⟩ := pyBind_plain (gpuAlsClassDefault) (names := gpuAlsNames) (by decide) c
  constructor
  · intro hc v hv
    obtain ⟨b, hb, hget⟩ := h1 hc
    have hg : ∀ p ∈ gpuAlsNames, b.get p = v p := fun p hp => hget p hp _ (hv p hp)
    unfold newGpuAls
    rw [hsig, hb]
    simp only [bind, Except.bind, pure, Except.pure]
    constructor
    · intro h
      rw [h]
      rfl
    · intro h
      rw [h]
      refine ⟨_, rfl, rfl, ?_⟩
      intro p hp
      simp only [List.mem_cons, List.not_mem_nil, or_false] at hp
      rcases hp with rfl | rfl | rfl | rfl | rfl | rfl | rfl <;> exact congrArg some (hg _ (by decide))
  · intro hc
    unfold newGpuAls
    rw [hsig, h2 hc]
    rfl

/-- **C57**: `implicit.gpu.bpr.BayesianPersonalizedRanking` (`dtype` is ignored), called directly. -/
theorem C57_gpu_bpr_class_partial (env : FactoryEnv) (c : Call PName ArgVal) :
    (c.Fits gpuBprParams 7 → ∀ v : PName → ArgVal, (∀ p ∈ gpuBprParams, c.Means gpuBprParams (bprArgDefault true) p (v p)) →
      (env.hasCuda = false → newGpuBpr env c = .error .valueError) ∧
      (env.hasCuda = true → ∃ m, newGpuBpr env c = .ok m ∧ BuiltAs .gpuBpr [PName.factors, .learning_rate, .regularization, .iterations, .verify_negative_samples, .random_state] v m)) ∧
    (¬ c.Fits gpuBprParams 7 → newGpuBpr env c = .error .typeError) := by
  have hsig : gpuBprSig = ⟨withDefaults ((bprArgDefault true)) gpuBprParams, [], false, false⟩ := rfl
  obtain ⟨h1, h2⟩ := pyBind_plain ((bprArgDefault true)) (names := gpuBprParams) (by decide) c
  constructor
  · intro hc v hv
    obtain ⟨b, hb, hget⟩ := h1 hc
    have hg : ∀ p ∈ gpuBprParams, b.get p = v p := fun p hp => hget p hp _ (hv p hp)
    unfold newGpuBpr
    rw [hsig, hb]
    simp only [bind, Except.bind, pure, Except.pure]
    constructor
    · intro h
      rw [h]
      rfl
    · intro h
      rw [h]
      refine ⟨_, rfl, rfl, ?_⟩
      intro p hp
      simp only [List.mem_cons, List.not_mem_nil, or_false] at hp
      rcases hp with rfl | rfl | rfl | rfl | rfl | rfl <;> exact congrArg some (hg _ (by decide))
  · intro hc
    unfold newGpuBpr
    rw [hsig, h2 hc]
    rfl

/-- **C57**: `implicit.cpu.als.AlternatingLeastSquares`, called directly. -/
theorem C57_cpu_als_class (env : FactoryEnv) (c : Call PName ArgVal) :
    (c.Fits cpuAlsParams 10 → ∀ v : PName → ArgVal, (∀ p ∈ cpuAlsParams, c.Means cpuAlsParams (alsArgDefault false) p (v p)) →
      (∀ e, env.npDtype (v .dtype) = .error e → newCpuAls env c = .error e) ∧
      (∀ dt, env.npDtype (v .dtype) = .ok dt → ∃ m, newCpuAls env c = .ok m ∧ BuiltAs .cpuAls [.dtype] (fun _ => dt) m ∧
        BuiltAs .cpuAls [PName.factors, .regularization, .alpha, .use_native, .use_cg, .iterations, .calculate_training_loss, .num_threads, .random_state] v m)) ∧
    (¬ c.Fits cpuAlsParams 10 → newCpuAls env c = .error .typeError) := by
  have hsig : cpuAlsSig = ⟨withDefaults ((alsArgDefault false)) cpuAlsParams, [], false, false⟩ := rfl
  obtain ⟨h1, h2⟩ := pyBind_plain ((alsArgDefault false)) (names := cpuAlsParams) (by decide) c
  constructor
  · intro hc v hv
    obtain ⟨b, hb, hget⟩ := h1 hc
    have hg : ∀ p ∈ cpuAlsParams, b.get p = v p := fun p hp => hget p hp _ (hv p hp)
    unfold newCpuAls
    rw [hsig, hb]
    simp only [bind, Except.bind, pure, Except.pure, hg .dtype (by decide)]
    constructor
    · intro e he
      rw [he]
    · intro dt hdt
      rw [hdt]
      refine ⟨_, rfl, ⟨rfl, ?_⟩, rfl, ?_⟩
      · intro p hp
        rw [List.mem_singleton.mp hp]
        rfl
      intro p hp
      simp only [List.mem_cons, List.not_mem_nil, or_false] at hp
      rcases hp with rfl | rfl | rfl | rfl | rfl | rfl | rfl | rfl | rfl <;> exact congrArg some (hg _ (by decide))
  · intro hc
    unfold newCpuAls
    rw [hsig, h2 hc]
    rfl

/-- **C57**: `implicit.cpu.bpr.BayesianPersonalizedRanking`, called directly. -/
theorem C57_cpu_bpr_class (env : FactoryEnv) (c : Call PName ArgVal) :
    (c.Fits cpuBprParams 8 → ∀ v : PName → ArgVal, (∀ p ∈ cpuBprParams, c.Means cpuBprParams (bprArgDefault false) p (v p)) →
      (∀ e, env.npDtype (v .dtype) = .error e → newCpuBpr env c = .error e) ∧
      (∀ dt, env.npDtype (v .dtype) = .ok dt → ∃ m, newCpuBpr env c = .ok m ∧ BuiltAs .cpuBpr [.dtype] (fun _ => dt) m ∧
        BuiltAs .cpuBpr [PName.factors, .learning_rate, .regularization, .iterations, .num_threads, .verify_negative_samples, .random_state] v m)) ∧
    (¬ c.Fits cpuBprParams 8 → newCpuBpr env c = .error .typeError) := by
  have hsig : cpuBprSig = ⟨withDefaults ((bprArgDefault false)) cpuBprParams, [], false, false⟩ := rfl
  obtain ⟨h1, h2⟩ := pyBind_plain ((bprArgDefault false)) (names := cpuBprParams) (by decide) c
  constructor
  · intro hc v hv
    obtain ⟨b, hb, hget⟩ := h1 hc
    have hg : ∀ p ∈ cpuBprParams, b.get p = v p := fun p hp => hget p hp _ (hv p hp)
    unfold newCpuBpr
    rw [hsig, hb]
    simp only [bind, Except.bind, pure, Except.pure, hg .dtype (by decide)]
    constructor
    · intro e he
      rw [he]
    · intro dt hdt
      rw [hdt]
      refine ⟨_, rfl, ⟨rfl, ?_⟩, rfl, ?_⟩
      · intro p hp
        rw [List.mem_singleton.mp hp]
        rfl
      intro p hp
      simp only [List.mem_cons, List.not_mem_nil, or_false] at hp
      rcases hp with rfl | rfl | rfl | rfl | rfl | rfl | rfl <;> exact congrArg some (hg _ (by decide))
  · intro hc
    unfold newCpuBpr
    rw [hsig, h2 hc]
    rfl

/-- **C57**: `implicit.cpu.lmf.LogisticMatrixFactorization`, called directly. -/
theorem C57_cpu_lmf_class (env : FactoryEnv) (c : Call PName ArgVal) :
    (c.Fits cpuLmfParams 8 → ∀ v : PName → ArgVal, (∀ p ∈ cpuLmfParams, c.Means cpuLmfParams lmfArgDefault p (v p)) →
      (∀ e, env.npDtype (v .dtype) = .error e → newCpuLmf env c = .error e) ∧
      (∀ dt, env.npDtype (v .dtype) = .ok dt → ∃ m, newCpuLmf env c = .ok m ∧ BuiltAs .cpuLmf [.dtype] (fun _ => dt) m ∧
        BuiltAs .cpuLmf [PName.factors, .learning_rate, .regularization, .iterations, .neg_prop, .num_threads, .random_state] v m)) ∧
    (¬ c.Fits cpuLmfParams 8 → newCpuLmf env c = .error .typeError) := by
  have hsig : cpuLmfSig = ⟨withDefaults (lmfArgDefault) cpuLmfParams, [], false, false⟩ := rfl
  obtain ⟨h1, h2⟩ := pyBind_plain (lmfArgDefault) (names := cpuLmfParams) (by decide) c
  constructor
  · intro hc v hv
    obtain ⟨b, hb, hget⟩ := h1 hc
    have hg : ∀ p ∈ cpuLmfParams, b.get p = v p := fun p hp => hget p hp _ (hv p hp)
    unfold newCpuLmf
    rw [hsig, hb]
    simp only [bind, Except.bind, pure, Except.pure, hg .dtype (by decide)]
    constructor
    · intro e he
      rw [he]
    · intro dt hdt
      rw [hdt]
      refine ⟨_, rfl, ⟨rfl, ?_⟩, rfl, ?_⟩
      · intro p hp
        rw [List.mem_singleton.mp hp]
        rfl
      intro p hp
      simp only [List.mem_cons, List.not_mem_nil, or_false] at hp
      rcases hp with rfl | rfl | rfl | rfl | rfl | rfl | rfl <;> exact congrArg some (hg _ (by decide))
  · intro hc
    unfold newCpuLmf
    rw [hsig, h2 hc]
    rfl

/-- Direct calls: the default and a positional argument. -/
example : newGpuAls ⟨true, fun _ => true, .ok⟩ ⟨[], []⟩ = .ok (.factor .gpuAls [(.factors, .num 64),
    (.regularization, .num (1 / 100)), (.alpha, .num 1), (.dtype, .float32), (.iterations, .num 15),
    (.calculate_training_loss, .bool false), (.random_state, .none)]) := rfl

/-! ## Approximate models -/

/-- Own parameters of the approximate factories; every other parameter is one of the ALS factory. -/
def annoyOwn : List PName := [.approximate_similar_items, .approximate_recommend, .n_trees, .search_k]

def nmslibOwn : List PName :=
  [.approximate_similar_items, .approximate_recommend, .method, .index_params, .query_params]

def faissOwn : List PName := [.approximate_similar_items, .approximate_recommend, .nlist, .nprobe]

/-- Defaults of the approximate factories. -/
def approxArgDefault (cuda : Bool) : PName → ArgVal
  | .approximate_similar_items => .bool true
  | .approximate_recommend => .bool true
  | .n_trees => .num 50
  | .search_k => .num (-1)
  | .method => .str "hnsw"
  | .nlist => .num 400
  | .nprobe => .num 20
  | p => alsArgDefault cuda p

/-- `r` is an approximate model of class `cls` with the attributes `ps` equal to `v`, wrapping the model an ALS
factory call with the values `v` has to give, and it is the error of that call if there is one. -/
structure ApproxOutcome (env : FactoryEnv) (cls : PyClass) (ps : List PName) (v attr : PName → ArgVal)
    (r : Except Err PyModel) : Prop where
  wraps : ∃ inner, AlsOutcome env v inner ∧
    (∀ e, inner = .error e → r = .error e) ∧
    (∀ m, inner = .ok m → ∃ attrs, r = .ok (.ann cls attrs m) ∧ ∀ p ∈ ps, attrs.lookup p = some (attr p))

/-- The wrapped call of a factory with the own parameters `own`. -/
theorem approx_inner (env : FactoryEnv) {own : List PName} (hnd : (alsNames ++ own).Nodup)
    (hd : (own ++ [PName.use_gpu]).Nodup) (c : Call PName ArgVal) :
    (¬ (c.Fits (alsNames ++ own) 6) →
      (pyBind ⟨[], (own ++ [PName.use_gpu]).map (fun p => (p, approxArgDefault env.hasCuda p)), true, true⟩ c >>= innerAls env)
        = .error .typeError) ∧
    (c.Fits (alsNames ++ own) 6 → ∀ v : PName → ArgVal,
      (∀ p ∈ alsNames ++ own, c.Means (alsNames ++ own) (approxArgDefault env.hasCuda) p (v p)) →
      ∃ b, pyBind ⟨[], (own ++ [PName.use_gpu]).map (fun p => (p, approxArgDefault env.hasCuda p)), true, true⟩ c = .ok b ∧
        (∀ p ∈ own ++ [PName.use_gpu], b.get p = v p) ∧ AlsOutcome env v (innerAls env b)) := by
  have hmap : ((own ++ [PName.use_gpu]).map (fun p => (p, approxArgDefault env.hasCuda p))).map Prod.fst
      = own ++ [PName.use_gpu] := by simp [Function.comp_def]
  have hdisj : ∀ p ∈ own, p ∉ alsNames := fun p hp hp' => (List.nodup_append.mp hnd).2.2 p hp' p hp rfl
  have hk : alsNames[6]? = some .use_gpu := rfl
  have hals : alsNames.Nodup := by decide
  by_cases hkw : (c.kw.map Prod.fst).Nodup
  · obtain ⟨b, hb, hpos, hekw, hget⟩ := pyBind_forward
      ((own ++ [PName.use_gpu]).map (fun p => (p, approxArgDefault env.hasCuda p))) (by rw [hmap]; exact hd) c hkw
    rw [hmap] at hekw
    have hin : innerAls env b = alsFactory env (innerCall own (b.get .use_gpu) c) := by
      unfold innerAls innerCall
      rw [hpos, hekw]
    constructor
    · intro hc
      rw [hb]
      show innerAls env b = _
      rw [hin]
      exact (C57_als env _).2 (innerCall_not_fits hk hdisj hkw hc _)
    · intro hc v hv
      have hgetv : ∀ p ∈ own ++ [PName.use_gpu], b.get p = v p := by
        intro p hp
        rw [hget (p, approxArgDefault env.hasCuda p) (List.mem_map.mpr ⟨p, hp, rfl⟩)]
        refine own_value hk hnd hc hp (hv p ?_)
        rcases List.mem_append.mp hp with h | h
        · exact List.mem_append_right _ h
        · rw [List.mem_singleton.mp h]; exact List.mem_append_left _ (by decide)
      refine ⟨b, hb, hgetv, ?_⟩
      rw [hin]
      refine (C57_als env _).1 (innerCall_fits hk hals hc _) v ?_
      intro p hp
      refine innerCall_means (d := approxArgDefault env.hasCuda) hk hdisj ?_ hc hp (hv p (List.mem_append_left _ hp)) ?_
      · intro q hq _
        have : q ∈ [PName.factors, .regularization, .alpha, .dtype, .use_native, .use_cg, .use_gpu, .iterations,
          .calculate_training_loss, .num_threads, .random_state] := hq
        simp only [List.mem_cons, List.not_mem_nil, or_false] at this
        rcases this with rfl | rfl | rfl | rfl | rfl | rfl | rfl | rfl | rfl | rfl | rfl <;> rfl
      · rintro rfl
        exact (hgetv .use_gpu (by simp)).symm
  · constructor
    · intro _
      rw [pyBind_forward_error _ _ hkw]
      rfl
    · intro hc
      exact absurd hc.once hkw

/-- **C57**: `implicit.approximate_als.AnnoyAlternatingLeastSquares`, for at most six positional arguments. -/
theorem C57_annoy (env : FactoryEnv) (c : Call PName ArgVal) :
    (c.Fits (alsNames ++ annoyOwn) 6 → ∀ v : PName → ArgVal,
      (∀ p ∈ alsNames ++ annoyOwn, c.Means (alsNames ++ annoyOwn) (approxArgDefault env.hasCuda) p (v p)) →
      ApproxOutcome env .annoy annoyOwn v v (annoyFactory env c)) ∧
    (¬ c.Fits (alsNames ++ annoyOwn) 6 → annoyFactory env c = .error .typeError) := by
  obtain ⟨h1, h2⟩ := approx_inner env (own := annoyOwn) (by decide) (by decide) c
  have hsig : annoyFactorySig env = ⟨[], (annoyOwn ++ [PName.use_gpu]).map (fun p => (p, approxArgDefault env.hasCuda p)),
    true, true⟩ := rfl
  have hr : annoyFactory env c = (pyBind (annoyFactorySig env) c).bind fun b => (innerAls env b).bind fun inner =>
    .ok (.ann .annoy [(.approximate_similar_items, b.get .approximate_similar_items),
      (.approximate_recommend, b.get .approximate_recommend), (.n_trees, b.get .n_trees),
      (.search_k, b.get .search_k)] inner) := rfl
  rw [hr, hsig]
  constructor
  · intro hc v hv
    obtain ⟨b, hb, hget, hin⟩ := h2 hc v hv
    rw [hb]
    refine ⟨innerAls env b, hin, ?_, ?_⟩
    · intro e he
      simp only [Except.bind, he]
    · intro m hm
      simp only [Except.bind, hm]
      refine ⟨_, rfl, ?_⟩
      simp only [hget .approximate_similar_items (by decide), hget .approximate_recommend (by decide),
        hget .n_trees (by decide), hget .search_k (by decide)]
      intro p hp
      simp only [annoyOwn, List.mem_cons, List.not_mem_nil, or_false] at hp
      rcases hp with rfl | rfl | rfl | rfl <;> rfl
  · intro hc
    have := h1 hc
    simp only [bind, Except.bind] at this ⊢
    split at this
    · exact congrArg _ (Except.error.inj this)
    · simp only [this]

/-- **C57**: `implicit.approximate_als.FaissAlternatingLeastSquares`. -/
theorem C57_faiss (env : FactoryEnv) (c : Call PName ArgVal) :
    (c.Fits (alsNames ++ faissOwn) 6 → ∀ v : PName → ArgVal,
      (∀ p ∈ alsNames ++ faissOwn, c.Means (alsNames ++ faissOwn) (approxArgDefault env.hasCuda) p (v p)) →
      ApproxOutcome env .faiss (faissOwn ++ [PName.use_gpu]) v v (faissFactory env c)) ∧
    (¬ c.Fits (alsNames ++ faissOwn) 6 → faissFactory env c = .error .typeError) := by
  obtain ⟨h1, h2⟩ := approx_inner env (own := faissOwn) (by decide) (by decide) c
  have hsig : faissFactorySig env = ⟨[], (faissOwn ++ [PName.use_gpu]).map (fun p => (p, approxArgDefault env.hasCuda p)),
    true, true⟩ := rfl
  have hr : faissFactory env c = (pyBind (faissFactorySig env) c).bind fun b => (innerAls env b).bind fun inner =>
    .ok (.ann .faiss [(.approximate_similar_items, b.get .approximate_similar_items),
      (.approximate_recommend, b.get .approximate_recommend), (.nlist, b.get .nlist),
      (.nprobe, b.get .nprobe), (.use_gpu, b.get .use_gpu)] inner) := rfl
  rw [hr, hsig]
  constructor
  · intro hc v hv
    obtain ⟨b, hb, hget, hin⟩ := h2 hc v hv
    rw [hb]
    refine ⟨innerAls env b, hin, ?_, ?_⟩
    · intro e he
      simp only [Except.bind, he]
    · intro m hm
      simp only [Except.bind, hm]
      refine ⟨_, rfl, ?_⟩
      simp only [hget .approximate_similar_items (by decide), hget .approximate_recommend (by decide),
        hget .nlist (by decide), hget .nprobe (by decide), hget .use_gpu (by decide)]
      intro p hp
      simp only [faissOwn, List.cons_append, List.nil_append, List.mem_cons, List.not_mem_nil, or_false] at hp
      rcases hp with rfl | rfl | rfl | rfl | rfl <;> rfl
  · intro hc
    have := h1 hc
    simp only [bind, Except.bind] at this ⊢
    split at this
    · exact congrArg _ (Except.error.inj this)
    · simp only [this]

/-- The attributes of an NMSLib model: `None` for a parameter dictionary stands for the documented dictionary. -/
def nmslibAttr (v : PName → ArgVal) : PName → ArgVal
  | .index_params => if v .index_params = .none then .dict [("M", 16), ("post", 0), ("efConstruction", 400)]
      else v .index_params
  | .query_params => if v .query_params = .none then .dict [("ef", 90)] else v .query_params
  | p => v p

/-- **C57**: `implicit.approximate_als.NMSLibAlternatingLeastSquares`. -/
theorem C57_nmslib (env : FactoryEnv) (c : Call PName ArgVal) :
    (c.Fits (alsNames ++ nmslibOwn) 6 → ∀ v : PName → ArgVal,
      (∀ p ∈ alsNames ++ nmslibOwn, c.Means (alsNames ++ nmslibOwn) (approxArgDefault env.hasCuda) p (v p)) →
      ApproxOutcome env .nmslib nmslibOwn v (nmslibAttr v) (nmslibFactory env c)) ∧
    (¬ c.Fits (alsNames ++ nmslibOwn) 6 → nmslibFactory env c = .error .typeError) := by
  obtain ⟨h1, h2⟩ := approx_inner env (own := nmslibOwn) (by decide) (by decide) c
  have hsig : nmslibFactorySig env = ⟨[], (nmslibOwn ++ [PName.use_gpu]).map (fun p => (p, approxArgDefault env.hasCuda p)),
    true, true⟩ := rfl
  have hr : nmslibFactory env c = (pyBind (nmslibFactorySig env) c).bind fun b => (innerAls env b).bind fun inner =>
    .ok (.ann .nmslib [(.approximate_similar_items, b.get .approximate_similar_items),
      (.approximate_recommend, b.get .approximate_recommend), (.method, b.get .method),
      (.index_params, if b.get .index_params = .none then .dict [("M", 16), ("post", 0), ("efConstruction", 400)]
        else b.get .index_params),
      (.query_params, if b.get .query_params = .none then .dict [("ef", 90)] else b.get .query_params)] inner) := rfl
  rw [hr, hsig]
  constructor
  · intro hc v hv
    obtain ⟨b, hb, hget, hin⟩ := h2 hc v hv
    rw [hb]
    refine ⟨innerAls env b, hin, ?_, ?_⟩
    · intro e he
      simp only [Except.bind, he]
    · intro m hm
      simp only [Except.bind, hm]
      refine ⟨_, rfl, ?_⟩
      simp only [hget .approximate_similar_items (by decide), hget .approximate_recommend (by decide),
        hget .method (by decide), hget .index_params (by decide), hget .query_params (by decide)]
      intro p hp
      simp only [nmslibOwn, List.mem_cons, List.not_mem_nil, or_false] at hp
      rcases hp with rfl | rfl | rfl | rfl | rfl <;> rfl
  · intro hc
    have := h1 hc
    simp only [bind, Except.bind] at this ⊢
    split at this
    · exact congrArg _ (Except.error.inj this)
    · simp only [this]

/-! ## Disagreements -/

/-- **C57**, violated: the approximate factories document that the positional arguments are those of the ALS
factory; a call with seven or more of them that the ALS factory accepts always raises `TypeError`. -/
theorem C57_positional_violated (env : FactoryEnv) (c : Call PName ArgVal) (_hals : c.Fits alsNames 11)
    (hpos : 7 ≤ c.pos.length) :
    annoyFactory env c = .error .typeError ∧ nmslibFactory env c = .error .typeError ∧
      faissFactory env c = .error .typeError := by
  refine ⟨(C57_annoy env c).2 ?_, (C57_nmslib env c).2 ?_, (C57_faiss env c).2 ?_⟩ <;>
    exact fun h => by have := h.posCount; omega

/-- A machine with CUDA on which `np.dtype` accepts everything. -/
def cudaEnv : FactoryEnv := ⟨true, fun _ => true, .ok⟩

/-- A machine without CUDA. -/
def plainEnv : FactoryEnv := ⟨false, fun _ => true, fun v => if v = .float32 then .ok .float32 else .error .typeError⟩

/-- Seven positional arguments. -/
def sevenArgs : Call PName ArgVal :=
  ⟨[.num 8, .num 1, .num 1, .float32, .bool true, .bool true, .bool false], []⟩

example : sevenArgs.Fits alsNames 11 ∧ 7 ≤ sevenArgs.pos.length :=
  ⟨⟨by decide, by decide, by decide, by decide⟩, by decide⟩

example : (alsFactory plainEnv sevenArgs).toOption.isSome ∧ annoyFactory plainEnv sevenArgs = .error .typeError := by
  decide +kernel

/-- **C57**, violated: on the GPU the `dtype` of the BPR factory is dropped; the models of two calls that differ in
it are the same. -/
theorem C57_gpu_bpr_dtype_violated (d₁ d₂ : ArgVal) :
    bprFactory cudaEnv ⟨[], [(.dtype, d₁)]⟩ = bprFactory cudaEnv ⟨[], [(.dtype, d₂)]⟩ ∧
      ∃ m, bprFactory cudaEnv ⟨[], [(.dtype, d₁)]⟩ = .ok m := ⟨rfl, _, rfl⟩

/-- **C57**, violated: `NMSLibModel` accepts and drops unknown keywords, for instance misspelt ones. -/
theorem C57_nmslib_kwargs_violated (inner : PyModel) (name : String) (v : ArgVal) :
    newNmslib inner ⟨[], [(.other name, v)]⟩ = newNmslib inner ⟨[], []⟩ ∧
      ∃ m, newNmslib inner ⟨[], []⟩ = .ok m := ⟨rfl, _, rfl⟩

/-! ## Examples -/

/-- `AlternatingLeastSquares(64, alpha=2, use_gpu=False)`. -/
def alsCall : Call PName ArgVal := ⟨[.num 64], [(.alpha, .num 2), (.use_gpu, .bool false)]⟩

example : alsCall.Fits alsNames 11 := ⟨by decide, by decide, by decide, by decide⟩

example : ∃ v : PName → ArgVal, ∀ p ∈ alsNames, alsCall.Means alsNames (alsArgDefault true) p (v p) := by
  classical
  exact ⟨fun p => if h : p ∈ alsNames then (means_exists (alsArgDefault true) alsCall h (by decide)).choose else .none,
    fun p hp => by simp only [dif_pos hp]; exact (means_exists (alsArgDefault true) alsCall hp (by decide)).choose_spec⟩

example : alsFactory cudaEnv alsCall = .ok (.factor .cpuAls [(.num_threads, .num 0), (.factors, .num 64),
    (.regularization, .num (1 / 100)), (.alpha, .num 2), (.dtype, .float32), (.use_native, .bool true),
    (.use_cg, .bool true), (.iterations, .num 15), (.calculate_training_loss, .bool false),
    (.random_state, .none)]) := by decide +kernel

example : alsFactory plainEnv ⟨[.num 64], [(.use_gpu, .num 1)]⟩ = .error .valueError := by decide +kernel
example : alsFactory plainEnv ⟨[.num 64], [(.factors, .num 1)]⟩ = .error .typeError := by decide +kernel
example : alsFactory plainEnv ⟨[.num 64], [(.other "factor", .num 1)]⟩ = .error .typeError := by decide +kernel
example : alsFactory plainEnv ⟨[.num 64], [(.dtype, .num 1)]⟩ = .error .typeError := by decide +kernel

example : bprFactory cudaEnv ⟨[.num 8], [(.iterations, .num 3)]⟩ = .ok (.factor .gpuBpr [(.factors, .num 8),
    (.learning_rate, .num (1 / 100)), (.iterations, .num 3), (.regularization, .num (1 / 100)),
    (.verify_negative_samples, .bool true), (.random_state, .none)]) := by decide +kernel

example : lmfFactory plainEnv ⟨[], [(.use_gpu, .bool true)]⟩ = .error .notImplemented := by decide +kernel

example : annoyFactory plainEnv ⟨[.num 8], [(.n_trees, .num 10), (.alpha, .num 3)]⟩ =
    .ok (.ann .annoy [(.approximate_similar_items, .bool true), (.approximate_recommend, .bool true),
      (.n_trees, .num 10), (.search_k, .num (-1))]
      (.factor .cpuAls [(.num_threads, .num 0), (.factors, .num 8),
        (.regularization, .num (1 / 100)), (.alpha, .num 3), (.dtype, .float32), (.use_native, .bool true),
        (.use_cg, .bool true), (.iterations, .num 15), (.calculate_training_loss, .bool false),
        (.random_state, .none)])) := by decide +kernel

example : (⟨[.num 8], [(.n_trees, .num 10), (.alpha, .num 3)]⟩ : Call PName ArgVal).Fits (alsNames ++ annoyOwn) 6 :=
  ⟨by decide, by decide, by decide, by decide⟩

end Implicit
