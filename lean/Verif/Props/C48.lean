import Verif.Model.Seed

/-!
# C48 — Documented random_state values are honoured
-/

namespace Implicit

variable {R Gen Legacy Dev : Type}

/-- **CPU**: `None`, every non-negative integer and every `Generator` are accepted. -/
theorem C48_cpu_accepts_partial (L : SeedLib R Gen Legacy Dev) (W : World Gen) :
    (∃ g, cpuRandomState L W .none = .ok g) ∧
      (∀ n : Int, (∃ g, cpuRandomState L W (.int n) = .ok g) ↔ 0 ≤ n) ∧
      (∀ g, cpuRandomState L W (.generator g) = .ok g) := by
  refine ⟨⟨_, rfl⟩, fun n => ?_, fun g => rfl⟩
  unfold cpuRandomState
  constructor
  · rintro ⟨g, h⟩
    by_cases hn : n < 0
    · simp only [if_pos hn] at h; cases h
    · omega
  · intro hn
    exact ⟨L.ofSeed n.toNat, by simp only [if_neg (by omega : ¬ n < 0)]⟩

/-- **CPU**: with equal integer seeds (or generators in equal states) the initial state of a fit is the same in
every process. -/
theorem C48_cpu_equal [Zero R] [One R] (L : SeedLib R Gen Legacy Dev) (W W' : World Gen) (scale : R → R)
    (rows : List (List Nat)) (users items factors threads : Nat) (arg : SeedArg Gen Legacy)
    (harg : (∃ n, arg = .int n) ∨ ∃ g, arg = .generator g) :
    alsInitial L W scale users items factors arg = alsInitial L W' scale users items factors arg ∧
      bprInitial L W scale rows items factors threads arg =
        bprInitial L W' scale rows items factors threads arg := by
  rcases harg with ⟨n, rfl⟩ | ⟨g, rfl⟩ <;> exact ⟨rfl, rfl⟩

/-- **CPU**: a `np.random.RandomState` raises `AttributeError` in every fit. -/
theorem C48_cpu_legacy_violated [Zero R] [One R] (L : SeedLib R Gen Legacy Dev) (W : World Gen)
    (scale : R → R) (rows : List (List Nat)) (users items factors threads : Nat) (s : Legacy) :
    alsInitial L W scale users items factors (.legacy s) = .error .attributeError ∧
      bprInitial L W scale rows items factors threads (.legacy s) = .error .attributeError :=
  ⟨rfl, rfl⟩

/-- **GPU**: everything is accepted except integers outside 64 bits. -/
theorem C48_gpu_accepts (L : SeedLib R Gen Legacy Dev) (W : World Gen) (hW : 0 ≤ W.clock ∧ W.clock < 2 ^ 63) :
    (∃ g, gpuRandomState L W .none = .ok g) ∧
      (∀ n : Int, (∃ g, gpuRandomState L W (.int n) = .ok g) ↔ -2 ^ 63 ≤ n ∧ n < 2 ^ 63) ∧
      (∀ g, ∃ d, gpuRandomState L W (.generator g) = .ok d) ∧
      (∀ s, ∃ d, gpuRandomState L W (.legacy s) = .ok d) := by
  refine ⟨⟨_, rfl⟩, fun n => ?_, fun g => ⟨_, rfl⟩, fun s => ⟨_, rfl⟩⟩
  unfold gpuRandomState
  dsimp only
  by_cases h0 : n = 0
  · subst h0
    rw [if_pos rfl, if_pos ⟨by omega, hW.2⟩]
    exact ⟨fun _ => by decide, fun _ => ⟨_, rfl⟩⟩
  · rw [if_neg h0]
    constructor
    · rintro ⟨g, h⟩
      by_cases hr : -2 ^ 63 ≤ n ∧ n < 2 ^ 63
      · exact hr
      · rw [if_neg hr] at h; cases h
    · intro hr
      exact ⟨_, by rw [if_pos hr]⟩

/-- **GPU**: equal non-zero integer seeds (also generators and `RandomState`s in equal states) give the same
initial factors, whatever the clock. -/
theorem C48_gpu_equal_partial (L : SeedLib R Gen Legacy Dev) (W W' : World Gen) (users items factors : Nat)
    (arg : SeedArg Gen Legacy)
    (harg : (∃ n, n ≠ 0 ∧ arg = .int n) ∨ (∃ g, arg = .generator g) ∨ ∃ s, arg = .legacy s) :
    gpuAlsInitial L W users items factors arg = gpuAlsInitial L W' users items factors arg := by
  have h : gpuRandomState L W arg = gpuRandomState L W' arg := by
    rcases harg with ⟨n, hn, rfl⟩ | ⟨g, rfl⟩ | ⟨s, rfl⟩
    · simp [gpuRandomState, hn]
    · rfl
    · rfl
  unfold gpuAlsInitial
  rw [h]

/-- **GPU**: the seed 0 is not honoured — the clock is used. -/
theorem C48_gpu_zero_violated :
    ∃ (L : SeedLib Int Unit Unit Int), ∀ c c' : Int, 0 ≤ c → c < 2 ^ 63 → 0 ≤ c' → c' < 2 ^ 63 → c ≠ c' →
      gpuAlsInitial L ⟨(), c⟩ 1 1 1 (.int 0) ≠ gpuAlsInitial L ⟨(), c'⟩ 1 1 1 (.int 0) := by
  refine ⟨⟨fun _ => (), fun _ _ _ => (fun _ _ => 0, ()), fun _ _ => ([], ()), fun _ => 0, fun _ => 0,
    fun n => n, fun d _ _ => (fun _ _ => d, d)⟩, fun c c' h1 h2 h3 h4 hne h => hne ?_⟩
  simp only [gpuAlsInitial, gpuRandomState, bind, Except.bind, if_pos] at h
  rw [if_pos ⟨by omega, h2⟩, if_pos ⟨by omega, h4⟩] at h
  simp only [List.range_succ, List.range_zero, List.nil_append, List.map_cons, List.map_nil] at h
  have h5 := (Prod.mk.inj (Except.ok.inj h)).1
  have h6 := congrFun (List.cons.inj h5).1 0
  exact h6

/-- The same seed seeds the same generator on CPU; different processes may only differ for `None`. -/
example : ∃ (L : SeedLib Int Nat Unit Int),
    alsInitial L ⟨1, 0⟩ id 1 1 1 .none ≠ alsInitial L ⟨2, 0⟩ id 1 1 1 .none := by
  refine ⟨⟨fun n => n, fun g _ _ => (fun _ _ => g, g), fun g _ => ([], g), fun _ => 0, fun _ => 0,
    fun n => n, fun d _ _ => (fun _ _ => d, d)⟩, fun h => ?_⟩
  have h5 := (Prod.mk.inj (Except.ok.inj h)).1
  have h6 := congrFun (List.cons.inj h5).1 0
  exact absurd h6 (by decide)

end Implicit
