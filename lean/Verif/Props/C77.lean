import Verif.Model.BlasCheck
import Mathlib.Data.List.Basic
/-!
# C77 — a program that trains with a multithreaded BLAS has been told so, once
-/

namespace Implicit

namespace Spec

/-- A BLAS library that uses its own threads. -/
def Threaded (p : PoolInfo) : Prop := p.userApi = "blas" ∧ p.numThreads ≠ 1

instance : DecidablePred Threaded := fun p => inferInstanceAs (Decidable (p.userApi = "blas" ∧ p.numThreads ≠ 1))

/-- The program never changes the number of threads or loads a library. -/
def KeepsPools (es : List BlasEvent) : Prop := ∀ e ∈ es, ∀ pools, e ≠ .configure pools

end Spec

open Spec (Threaded)

theorem threaded_iff (p : PoolInfo) : ¬ (p.userApi ≠ "blas" ∨ p.numThreads = 1) ↔ Threaded p := by
  unfold Threaded; push_neg; rfl

/-- The loop does not raise exactly if no warning about a threaded library is turned into an exception. -/
theorem warnPools_raised (raises : BlasWarning → Bool) : ∀ pools : List PoolInfo,
    (warnPools raises pools).2 = false ↔ ∀ p ∈ pools, Threaded p → raises p.warning = false
  | [] => by simp [warnPools]
  | p :: ps => by
    unfold warnPools
    by_cases h : p.userApi ≠ "blas" ∨ p.numThreads = 1
    · rw [if_pos h, warnPools_raised raises ps]
      have hp : ¬ Threaded p := fun h' => (threaded_iff p).mpr h' h
      simp [hp]
    · have hp : Threaded p := (threaded_iff p).mp h
      rw [if_neg h]
      cases hr : raises p.warning
      · simp only [Bool.false_eq_true, if_false]
        rw [warnPools_raised raises ps]
        simp [hp, hr]
      · simp [hp, hr]

/-- If it does not raise, there is one warning for every threaded library, in their order. -/
theorem warnPools_issued (raises : BlasWarning → Bool) : ∀ pools : List PoolInfo, (warnPools raises pools).2 = false →
    (warnPools raises pools).1 = (pools.filter fun p => decide (Threaded p)).map PoolInfo.warning
  | [], _ => rfl
  | p :: ps, hok => by
    unfold warnPools at hok ⊢
    by_cases h : p.userApi ≠ "blas" ∨ p.numThreads = 1
    · have hp : ¬ Threaded p := fun h' => (threaded_iff p).mpr h' h
      rw [if_pos h] at hok ⊢
      rw [warnPools_issued raises ps hok, List.filter_cons_of_neg (by simpa using hp)]
    · have hp : Threaded p := (threaded_iff p).mp h
      rw [if_neg h] at hok ⊢
      cases hr : raises p.warning
      · simp only [hr, Bool.false_eq_true, if_false] at hok ⊢
        rw [warnPools_issued raises ps hok, List.filter_cons_of_pos (by simpa using hp), List.map_cons]
      · simp [hr] at hok

/-- **C77**, the first model of a process: it is created exactly if no warning about a threaded library is turned into an exception; then
there is one warning for every threaded library. -/
theorem C77_first (s : BlasProcess) (h : s.checked = false) :
    ((blasStep s .create).2.raised = false ↔ ∀ p ∈ s.pools, Threaded p → s.raises p.warning = false) ∧
    ((blasStep s .create).2.raised = false →
      (blasStep s .create).2.warnings = (s.pools.filter fun p => decide (Threaded p)).map PoolInfo.warning) := by
  have key : (blasStep s .create).2 = ⟨(warnPools s.raises s.pools).1, (warnPools s.raises s.pools).2⟩ := by
    simp [blasStep, checkBlasConfig, h]
  rw [key]
  exact ⟨warnPools_raised _ _, warnPools_issued _ _⟩

/-- The flag of a process that has a model, or once had one. -/
theorem blasRun_checked : ∀ (es : List BlasEvent) (s : BlasProcess), s.checked = true →
    (blasRun s es).1.checked = true ∧ ∀ o ∈ (blasRun s es).2, o.warnings = []
  | [], s, h => ⟨h, fun _ ho => absurd ho List.not_mem_nil⟩
  | e :: es, s, h => by
    have hs : (blasStep s e).1.checked = true ∧ (blasStep s e).2.warnings = [] := by
      cases e <;> simp [blasStep, checkBlasConfig, h]
    obtain ⟨h1, h2⟩ := blasRun_checked es _ hs.1
    refine ⟨h1, fun o ho => ?_⟩
    rcases List.mem_cons.mp ho with rfl | ho
    · exact hs.2
    · exact h2 o ho

/-- **C77**, not repeated: after one model has been created, nothing in the rest of the program warns, and every further model is
created, whatever the libraries and the warning filters. -/
theorem C77_once (s : BlasProcess) (h : (blasStep s .create).2.raised = false) (es : List BlasEvent) :
    (∀ o ∈ (blasRun (blasStep s .create).1 es).2, o.warnings = []) ∧
    (blasStep (blasRun (blasStep s .create).1 es).1 .create).2 = ⟨[], false⟩ := by
  have hc : (blasStep s .create).1.checked = true := by
    cases hs : s.checked <;> simp [blasStep, checkBlasConfig, hs] at h ⊢
    exact h
  obtain ⟨h1, h2⟩ := blasRun_checked es _ hc
  refine ⟨h2, ?_⟩
  generalize (blasRun (blasStep s .create).1 es).1 = s' at h1
  simp [blasStep, checkBlasConfig, h1]

theorem blasRun_warned : ∀ (es : List BlasEvent) (s : BlasProcess), Spec.KeepsPools es → s.checked = false → s.models = 0 →
    (blasRun s es).1.models ≠ 0 → ∀ p ∈ s.pools, Threaded p → ∃ o ∈ (blasRun s es).2, p.warning ∈ o.warnings
  | [], s, _, _, hm, hm', _, _, _ => absurd hm hm'
  | e :: es, s, hk, hc, hm, hm', p, hp, ht => by
    have hke : Spec.KeepsPools es := fun e he => hk e (List.mem_cons_of_mem _ he)
    by_cases hcreate : e = .create ∧ (blasStep s .create).2.raised = false
    · obtain ⟨rfl, hr⟩ := hcreate
      refine ⟨(blasStep s .create).2, List.mem_cons_self, ?_⟩
      rw [(C77_first s hc).2 hr]
      exact List.mem_map.mpr ⟨p, List.mem_filter.mpr ⟨hp, by simpa using ht⟩, rfl⟩
    · have hstep : (blasStep s e).1.checked = false ∧ (blasStep s e).1.models = 0 ∧ (blasStep s e).1.pools = s.pools := by
        cases e with
        | create =>
          have hr : (blasStep s .create).2.raised = true := by
            cases h : (blasStep s .create).2.raised
            · exact absurd ⟨rfl, h⟩ hcreate
            · rfl
          simp only [blasStep, checkBlasConfig, hc, Bool.false_eq_true, if_false] at hr ⊢
          simp [hr, hm]
        | fit => exact ⟨hc, hm, rfl⟩
        | configure pools => exact absurd rfl (hk _ List.mem_cons_self pools)
        | filters raises => exact ⟨hc, hm, rfl⟩
      obtain ⟨o, ho, hw⟩ := blasRun_warned es _ hke hstep.1 hstep.2.1 hm' p (by rw [hstep.2.2]; exact hp) ht
      exact ⟨o, List.mem_cons_of_mem _ ho, hw⟩

/-- **C77**, under the condition that the libraries and their threads never change: when a model can be trained, there has been a
warning about every threaded library, whatever the program did before, including catching the exceptions of failed constructors. -/
theorem C77_warned_partial (pools : List PoolInfo) (raises : BlasWarning → Bool) (es : List BlasEvent) (hk : Spec.KeepsPools es)
    (hfit : (blasStep (blasRun (newProcess pools raises) es).1 .fit).2.raised = false) :
    ∀ p ∈ pools, Threaded p → ∃ o ∈ (blasRun (newProcess pools raises) es).2, p.warning ∈ o.warnings := by
  intro p hp ht
  refine blasRun_warned es (newProcess pools raises) hk rfl rfl ?_ p hp ht
  intro h0
  simp [blasStep, h0] at hfit

/-- **C77 is violated** without the condition: if the first model is created while no library is threaded, the program may switch to any
libraries with any number of threads, create more models and train them: there is no warning at all. -/
theorem C77_later_violated (pools pools' : List PoolInfo) (raises : BlasWarning → Bool) (h : ∀ p ∈ pools, ¬ Threaded p)
    (es : List BlasEvent) :
    (∀ o ∈ (blasRun (newProcess pools raises) (.create :: .configure pools' :: es)).2, o.warnings = []) ∧
    (blasRun (newProcess pools raises) [.create, .configure pools']).1.pools = pools' := by
  have hr : (blasStep (newProcess pools raises) .create).2.raised = false :=
    (C77_first _ rfl).1.mpr fun p hp ht => absurd ht (h p hp)
  refine ⟨fun o ho => ?_, rfl⟩
  rcases List.mem_cons.mp ho with rfl | ho
  · rw [(C77_first _ rfl).2 hr]
    simp only [List.map_eq_nil_iff, List.filter_eq_nil_iff, decide_eq_true_eq]
    exact h
  · exact (C77_once _ hr _).1 o ho

/-- **C77**: as long as a warning about a threaded library is an exception, no model is created, and the check starts again with every
attempt: nothing is lost by a failed attempt. -/
theorem C77_strict (s : BlasProcess) (h : s.checked = false) {p : PoolInfo} (hp : p ∈ s.pools) (ht : Threaded p)
    (hr : s.raises p.warning = true) : blasStep s .create = (s, ⟨(warnPools s.raises s.pools).1, true⟩) := by
  have hraised : (warnPools s.raises s.pools).2 = true := by
    cases hw : (warnPools s.raises s.pools).2
    · have := (warnPools_raised _ _).mp hw p hp ht
      rw [hr] at this
      cases this
    · rfl
  obtain ⟨pools, raises, checked, models⟩ := s
  simp only at h hraised
  simp [blasStep, checkBlasConfig, h, hraised]

/-- A program that catches the exception, relaxes the filters and trains: two warnings when the second attempt succeeds, none for the
third model. -/
example :
    let pools := [⟨"openmp", "openmp", 8⟩, ⟨"blas", "openblas", 4⟩, ⟨"blas", "mkl", 1⟩, ⟨"blas", "blis", 2⟩]
    (blasRun (newProcess pools fun _ => true) [.create, .filters fun _ => false, .create, .fit, .create]).2 =
      [⟨[.openblas 4], true⟩, ⟨[], false⟩, ⟨[.openblas 4, .other "blis" 2], false⟩, ⟨[], false⟩, ⟨[], false⟩] := by
  decide +kernel

/-- The violation: OpenBLAS gets eight threads after the first model. -/
example :
    (blasRun (newProcess [⟨"blas", "openblas", 1⟩] fun _ => false)
      [.create, .configure [⟨"blas", "openblas", 8⟩], .create, .fit]).2 = [⟨[], false⟩, ⟨[], false⟩, ⟨[], false⟩, ⟨[], false⟩] := by
  decide +kernel

end Implicit
