import Verif.Lemmas.NativeMemory
import Verif.Lemmas.DeviceLifetime
/-!
# C73: native memory is given back exactly once, and not used after that
-/

namespace Implicit

/-! ## The parallel sections on the CPU -/

/-- The exact solver, for any number of threads, any distribution of the rows, any schedule and any rows on which `posv` fails: at
every moment nothing is used that is not allocated and nothing freed twice, unless an allocation failed; every fair schedule ends; at
the end every thread has freed what it allocated; and the call raises `ValueError` exactly if there is a row on which `posv` fails. -/
theorem C73_least_squares {n : Nat} (fails : Nat → Bool) (rows : Nat → AlsRow) (tasks : Fin n → List Nat) (s : NativeMem)
    (hwhy : s.why = none) (schedule : List Nat) :
    let start := parallelSection s fun i => alsThread fails rows i.val (tasks i)
    let c := start.run schedule
    ((∀ k, fails k = false) → c.state.broken = s.broken) ∧
    (∀ fair : Nat → Nat, (∀ i < n, ∀ m, ∃ k, m ≤ k ∧ fair k = i) → ∃ m, (start.run ((List.range m).map fair)).finished = true) ∧
    (c.finished = true → (∀ t, (c.state.heaps t).live = (s.heaps t).live) ∧
      ((∀ k, fails k = false) →
        c.state.outcome = if ∃ i, ∃ u ∈ tasks i, rows u = .failed then .error .valueError else .ok ())) := by
  intro start c
  obtain ⟨hb, ho, hw, hf, hfair⟩ := section_results fails (AlsRaises rows) tasks (fun i => alsThread fails rows i.val (tasks i)) s hwhy
    (fun live _ own => ∃ k, own = ⟨k, live⟩) (fun i => safe_als rows (tasks i) (s.heaps i.val)) schedule
  refine ⟨hb, hfair, fun hfin => ⟨fun t => ?_, fun hn => ?_⟩⟩
  · by_cases ht : t < n
    · obtain ⟨k, hk⟩ := (hf hfin).1 ⟨t, ht⟩
      rw [hk]
    · rw [ho t (by omega)]
  · unfold NativeMem.outcome
    split_ifs with hex
    · obtain ⟨i, u, hu, hr⟩ := hex
      obtain ⟨e, he⟩ := Option.isSome_iff_exists.mp ((hf hfin).2 hn ⟨i, u, hu, _, hr, rfl⟩)
      obtain ⟨_, _, _, _, h2⟩ := hw e he
      have he' : c.state.why = some e := he
      rw [he', h2]
    · cases hc : c.state.why with
      | none => rfl
      | some e =>
        obtain ⟨i, u, hu, h1, _⟩ := hw e hc
        exact absurd ⟨i, u, hu, h1⟩ hex

/-- Sections whose iterations cannot raise. -/
private theorem quiet_section {n : Nat} (fails : Nat → Bool) (tasks : Fin n → List Nat) (s : NativeMem) (hwhy : s.why = none)
    (threads : Fin n → NativeProg (Except Err Unit))
    (hsafe : ∀ i : Fin n, Safe (memRely fails i.val)
      (memGuar fails (fun e => ∃ u ∈ tasks i, (fun _ _ => False : Nat → Err → Prop) u e) i.val) (fun _ => False)
      (fun _ s' => (∃ k, s'.heaps i.val = ⟨k, (s.heaps i.val).live⟩) ∧
        ((∀ u ∈ tasks i, ∀ e, ¬ (fun _ _ => False : Nat → Err → Prop) u e) ∨ s'.why.isSome = true ∨ ¬ ∀ n, fails n = false))
      (threads i) (fun s' => s'.heaps i.val = s.heaps i.val)) (schedule : List Nat) :
    let start := parallelSection s threads
    let c := start.run schedule
    ((∀ k, fails k = false) → c.state.broken = s.broken) ∧
    (∀ fair : Nat → Nat, (∀ i < n, ∀ m, ∃ k, m ≤ k ∧ fair k = i) → ∃ m, (start.run ((List.range m).map fair)).finished = true) ∧
    (c.finished = true → (∀ t, (c.state.heaps t).live = (s.heaps t).live) ∧ c.state.outcome = .ok ()) := by
  intro start c
  obtain ⟨hb, ho, hw, hf, hfair⟩ := section_results fails (fun _ _ => False) tasks threads s hwhy
    (fun live _ own => ∃ k, own = ⟨k, live⟩) hsafe schedule
  refine ⟨hb, hfair, fun hfin => ⟨fun t => ?_, ?_⟩⟩
  · by_cases ht : t < n
    · obtain ⟨k, hk⟩ := (hf hfin).1 ⟨t, ht⟩
      rw [hk]
    · rw [ho t (by omega)]
  · unfold NativeMem.outcome
    cases hc : c.state.why with
    | none => rfl
    | some e =>
      obtain ⟨_, _, _, h⟩ := hw e hc
      exact h.elim

/-- The conjugate gradient solver, the loss, and an update of logistic matrix factorisation. -/
theorem C73_sections {n : Nat} (fails : Nat → Bool) (cgRows : Nat → Option Bool) (empty : Nat → Bool) (tasks : Fin n → List Nat)
    (s : NativeMem) (hwhy : s.why = none) (schedule : List Nat) (threads : Fin n → NativeProg (Except Err Unit))
    (hthreads : threads = (fun i => cgThread fails cgRows i.val (tasks i)) ∨ threads = (fun i => lossThread fails i.val (tasks i)) ∨
      threads = (fun i => lmfThread fails empty i.val (tasks i))) :
    let start := parallelSection s threads
    let c := start.run schedule
    ((∀ k, fails k = false) → c.state.broken = s.broken) ∧
    (∀ fair : Nat → Nat, (∀ i < n, ∀ m, ∃ k, m ≤ k ∧ fair k = i) → ∃ m, (start.run ((List.range m).map fair)).finished = true) ∧
    (c.finished = true → (∀ t, (c.state.heaps t).live = (s.heaps t).live) ∧ c.state.outcome = .ok ()) := by
  rcases hthreads with rfl | rfl | rfl
  · exact quiet_section fails tasks s hwhy _ (fun i => safe_cg cgRows (tasks i) (s.heaps i.val)) schedule
  · exact quiet_section fails tasks s hwhy _ (fun i => safe_single (fun _ => false) (tasks i) (s.heaps i.val)) schedule
  · exact quiet_section fails tasks s hwhy _ (fun i => safe_single empty (tasks i) (s.heaps i.val)) schedule

/-- `all_pairs_knn`: the same, also when `progress.update` raises (a keyboard interrupt, say), in which case one of these exceptions
reaches the caller. -/
theorem C73_all_pairs {n : Nat} (fails : Nat → Bool) (update : Nat → Option Err) (tasks : Fin n → List Nat) (s : NativeMem)
    (hwhy : s.why = none) (schedule : List Nat) :
    let start := parallelSection s fun i => allPairsThread fails update i.val (tasks i)
    let c := start.run schedule
    ((∀ k, fails k = false) → c.state.broken = s.broken) ∧
    (∀ fair : Nat → Nat, (∀ i < n, ∀ m, ∃ k, m ≤ k ∧ fair k = i) → ∃ m, (start.run ((List.range m).map fair)).finished = true) ∧
    (c.finished = true → c.state.broken = false →
      (∀ t, (c.state.heaps t).live = (s.heaps t).live) ∧
      ((∀ k, fails k = false) → match c.state.outcome with
        | .ok () => ∀ i, ∀ u ∈ tasks i, update u = none
        | .error e => ∃ i, ∃ u ∈ tasks i, update u = some e)) := by
  intro start c
  obtain ⟨hb, ho, hw, hf, hfair⟩ := section_results fails (fun u e => update u = some e) tasks
    (fun i => allPairsThread fails update i.val (tasks i)) s hwhy
    (fun live s' own => s'.broken = true ∨ ∃ k, own = ⟨k, live⟩) (fun i => safe_allPairs update (tasks i) (s.heaps i.val)) schedule
  refine ⟨hb, hfair, fun hfin hnb => ⟨fun t => ?_, fun hn => ?_⟩⟩
  · by_cases ht : t < n
    · rcases (hf hfin).1 ⟨t, ht⟩ with h | ⟨k, hk⟩
      · have h' : c.state.broken = true := h
        rw [hnb] at h'
        cases h'
      · rw [hk]
    · rw [ho t (by omega)]
  · unfold NativeMem.outcome
    cases hc : c.state.why with
    | some e => exact hw e hc
    | none =>
      intro i u hu
      cases hu' : update u with
      | none => rfl
      | some e =>
        have := (hf hfin).2 hn ⟨i, u, hu, e, hu'⟩
        rw [show ((parallelSection s fun i => allPairsThread fails update i.val (tasks i)).run schedule).state.why = none from hc] at this
        cases this

/-- Two threads; `posv` fails on row 2. -/
def failingRows : Nat → AlsRow := fun u => if u = 2 then .failed else if u = 1 then .empty else .solved

/-- Nothing allocated yet. -/
def emptyMem : NativeMem := ⟨fun _ => ⟨0, []⟩, 0, none, false⟩

example :
    let c := (parallelSection (n := 2) emptyMem fun i => alsThread (fun _ => false) failingRows i.val
      (if i.val = 0 then [0, 1] else [2, 3])).run [0, 1, 1, 0, 1, 1, 1, 0, 1, 1, 1, 0, 0, 0, 0, 0, 0, 0, 0]
    c.finished = true ∧ c.state.broken = false ∧ c.state.outcome = .error .valueError ∧
      (c.state.heaps 0).live = [] ∧ (c.state.heaps 1).live = [] := by
  refine ⟨?_, ?_, ?_, ?_, ?_⟩ <;> decide +kernel

/-- What counts as broken: freeing twice, use after free and use of a null pointer; freeing a null pointer does not. -/
example :
    let run (p : MemBlock → NativeProg Unit) := ((parallelSection (n := 1) emptyMem fun i =>
      (newProg true (fun _ => false) i.val).andThen fun b => (p b).bind fun _ => .done (.ok ())).run (List.replicate 8 0)).state.broken
    run (fun b => (freeProg (some b)).bind fun _ => freeProg (some b)) = true ∧
      run (fun b => (freeProg (some b)).bind fun _ => useProg (some b)) = true ∧
      run (fun _ => useProg none) = true ∧
      run (fun b => (freeProg none).bind fun _ => (useProg (some b)).bind fun _ => freeProg (some b)) = false := by
  refine ⟨?_, ?_, ?_, ?_⟩ <;> decide +kernel

/-- The pointers that `malloc` returns are not tested: if it fails, the first row with entries writes through a null pointer. -/
theorem C73_malloc_violated :
    ((parallelSection (n := 1) emptyMem fun i => alsThread (fun k => k == 0) failingRows i.val [0]).run
      (List.replicate 8 0)).state.broken = true ∧
    ((parallelSection (n := 1) emptyMem fun i => cgThread (fun k => k == 2) (fun _ => some true) i.val [0]).run
      (List.replicate 8 0)).state.broken = true ∧
    ((parallelSection (n := 1) emptyMem fun i => lossThread (fun k => k == 0) i.val [0]).run
      (List.replicate 8 0)).state.broken = true ∧
    ((parallelSection (n := 1) emptyMem fun i => lmfThread (fun k => k == 0) (fun _ => false) i.val [0]).run
      (List.replicate 8 0)).state.broken = true := by
  refine ⟨?_, ?_, ?_, ?_⟩ <;> decide +kernel

/-- The constructors are not declared `except +`: `std::bad_alloc` ends the process instead of raising `MemoryError`. -/
theorem C73_new_violated :
    ((parallelSection (n := 1) emptyMem fun i => allPairsThread (fun k => k == 1) (fun _ => none) i.val [0]).run
      (List.replicate 8 0)).state.broken = true := by decide +kernel

/-! ## The scorer of item-item models -/

theorem safe_scorerCalls {fails : Nat → Bool} {bad : Err → Prop} {me : Nat} (hn : ∀ k, fails k = false) (number : Nat) :
    ∀ (calls : List (Option Err)) (h : OwnBlocks), number ∈ h.live →
    Tidy fails bad me h.live (scorerCalls fails me ⟨me, number⟩ calls) h
  | [], _, _ => Tidy.done rfl
  | body :: rest, h, hl => by
    refine Safe.bind (post := fun _ s => ∃ k, s.heaps me = ⟨k, h.live⟩) (fun _ => ?_) ?_
    · exact Safe.exists fun k => safe_scorerCalls hn number rest ⟨k, h.live⟩ hl
    · refine Safe.andThen (errs := fun _ _ => False)
        (post := fun b s => b = ⟨me, h.next⟩ ∧ s.heaps me = ⟨h.next + 1, h.next :: h.live⟩) ?_ (fun _ _ _ hs _ => hs)
        (fun e s hs => hs.elim) fun topK => Safe.pure fun hb => ?_
      · refine Safe.weaken (fun r s hs => ?_) (safe_new h)
        cases r with
        | error e => exact hs.1 hn
        | ok b => exact hs
      · subst hb
        refine Safe.weaken (fun r s hs => hs.2) (safe_tryFinally (Q := fun _ => True) (mid := h.next :: h.live) (live := h.live) ?_ fun k => ?_)
        · refine Safe.bind (fun _ => ?_) (safe_use (.inr rfl) (.inl (List.mem_cons_of_mem _ hl)))
          refine Safe.bind (fun _ => ?_) (safe_use (number := h.next) (h := ⟨h.next + 1, h.next :: h.live⟩) (.inr rfl) (.inl (by simp)))
          cases body with
          | none => exact Safe.done (own_stable _) fun s hs => ⟨trivial, _, hs⟩
          | some e => exact Safe.done (own_stable _) fun s hs => ⟨trivial, _, hs⟩
        · refine Safe.weaken (fun _ s hs => ⟨k, hs⟩) (safe_free (h' := ⟨k, h.live⟩) (by simp) (by simp [OwnBlocks.without]))

/-- A scorer from its construction to its end: whatever arrays it is given and however many of its calls raise, everything it
allocated is freed, provided no allocation fails. -/
theorem C73_scorer_partial (fails : Nat → Bool) (hn : ∀ k, fails k = false) (me : Nat) (views : Option Err) (calls : List (Option Err))
    (s : NativeMem) :
    ∃ r s', (scorerObject fails me views fun neighbours => scorerCalls fails me neighbours calls).alone s = some (r, s') ∧
      s'.broken = s.broken ∧ (∀ t, (s'.heaps t).live = (s.heaps t).live) ∧
      r = match views with | some e => .error e | none => .ok () := by
  have hsafe : Safe (memRely fails me) (memGuar fails (fun _ => False) me) (fun _ => False)
      (fun r s' => (r = match views with | some e => .error e | none => .ok ()) ∧ ∃ k, s'.heaps me = ⟨k, (s.heaps me).live⟩)
      (scorerObject fails me views fun neighbours => scorerCalls fails me neighbours calls) (fun s' => s'.heaps me = s.heaps me) := by
    refine Safe.andThen (errs := fun _ _ => False)
      (post := fun b s' => b = ⟨me, (s.heaps me).next⟩ ∧ s'.heaps me = ⟨(s.heaps me).next + 1, (s.heaps me).next :: (s.heaps me).live⟩) ?_
      (fun _ _ _ hs _ => hs) (fun e s hs => hs.elim) fun b => Safe.pure fun hb => ?_
    · refine Safe.weaken (fun r s hs => ?_) (safe_new (s.heaps me))
      cases r with
      | error e => exact hs.1 hn
      | ok b => exact hs
    · subst hb
      refine safe_tryFinally (mid := (s.heaps me).next :: (s.heaps me).live) ?_ fun k => ?_
      · cases views with
        | some e => exact Safe.done (own_stable _) fun s hs => ⟨rfl, _, hs⟩
        | none =>
          exact safe_scorerCalls hn (s.heaps me).next calls ⟨(s.heaps me).next + 1, (s.heaps me).next :: (s.heaps me).live⟩ (by simp)
      · refine Safe.weaken (fun _ s' hs => ⟨k, hs⟩) (safe_free (h' := ⟨k, (s.heaps me).live⟩) (by simp) (by simp [OwnBlocks.without]))
  obtain ⟨r, s', ha, ⟨hr, k, hk⟩, hg⟩ := safe_alone (memGuar_refl fails _ me) (memGuar_trans fails _ me) hsafe rfl
  refine ⟨r, s', ha, hg.2.1 hn, fun t => ?_, hr⟩
  by_cases ht : t = me
  · rw [ht, hk]
  · rw [hg.1 t ht]

example : ∃ r s', (scorerObject (fun _ => false) 0 none fun nb => scorerCalls (fun _ => false) 0 nb
    [none, some .runtimeError, none]).alone emptyMem = some (r, s') ∧ s'.broken = false ∧ (s'.heaps 0).live = [] ∧
    (s'.heaps 0).next = 4 :=
  ⟨_, _, rfl, by decide, by decide, by decide⟩

/-! ## Native code of the GPU models -/

/-- `bpr_update`, sparse matrices during a training run of any length, a random generator and a solver: if no library call fails,
everything is freed and the calls return normally. -/
theorem C73_gpu_partial (fails : Nat → Bool) (hn : ∀ k, fails k = false) (me sweeps : Nat) (s : NativeMem)
    (p : NativeProg (Except Err Unit))
    (hp : p = bprUpdateMemory fails me ∨
      p = sparseObject (csrConstruct fails me) (csrDestruct fails) (fun m => solveSweeps fails m sweeps) ∨
      p = sparseObject (cooConstruct fails me) (cooDestruct fails) (fun m => solveSweeps fails m sweeps) ∨
      p = randomObject fails me (fun rng => (useProg (some rng)).bind fun _ => .done (.ok ())) ∨
      p = solverObject fails me (fun handle => (useProg (some handle)).bind fun _ => .done (.ok ()))) :
    ∃ s', p.alone s = some (.ok (), s') ∧ s'.broken = s.broken ∧ ∀ t, (s'.heaps t).live = (s.heaps t).live := by
  have key : Tidy fails (fun _ => False) me (s.heaps me).live p (s.heaps me) := by
    have hsweeps : ∀ (a b c : Nat) (n : Nat) (h : OwnBlocks), a ∈ h.live → b ∈ h.live → c ∈ h.live →
        Tidy fails (fun _ => False) me h.live (solveSweeps fails ⟨⟨me, a⟩, ⟨me, b⟩, ⟨me, c⟩⟩ n) h := by
      intro a b c n
      induction n with
      | zero => exact fun h _ _ _ => Tidy.done rfl
      | succ n ih =>
        intro h ha hb hc
        refine Tidy.andThen (mid := h.live) ?_ fun k => ih ⟨k, h.live⟩ ha hb hc
        refine Tidy.use ha (Tidy.use hb (Tidy.use hc ?_))
        refine Safe.weaken (fun r s hs => ?_) (safe_checked h)
        rcases hs with ⟨rfl | ⟨rfl, hf⟩, hs⟩
        · exact ⟨rfl, h.next, hs⟩
        · exact absurd hn hf
    generalize s.heaps me = h0
    obtain ⟨nx, lv⟩ := h0
    rcases hp with rfl | rfl | rfl | rfl | rfl
    · refine Tidy.new hn (Tidy.check hn (Tidy.new hn (Tidy.new hn (Tidy.new hn (Tidy.check hn (Tidy.check hn (Tidy.check hn
        (Tidy.check hn (Tidy.check hn (Tidy.use (by simp) (Tidy.use (by simp) (Tidy.use (by simp) (Tidy.check hn (Tidy.check hn
        (Tidy.check hn (Tidy.free (by simp) (Tidy.check hn (Tidy.free ?_ (Tidy.check hn (Tidy.free ?_ (Tidy.free ?_
        (Tidy.done ?_)))))))))))))))))))))) <;> simp [Nat.add_assoc]
    · unfold sparseObject csrConstruct
      simp only [Prog.andThen_andThen]
      refine Tidy.new hn ?_
      refine Tidy.check hn ?_
      refine Tidy.check hn ?_
      refine Tidy.new hn ?_
      refine Tidy.check hn ?_
      refine Tidy.check hn ?_
      refine Tidy.new hn ?_
      refine Tidy.check hn ?_
      refine Tidy.check hn ?_
      refine safe_tryFinally (Q := fun r => r = .ok ()) (mid := (nx + 2) :: (nx + 1) :: nx :: lv)
        (hsweeps _ _ _ sweeps ⟨nx + 3, (nx + 2) :: (nx + 1) :: nx :: lv⟩ (by simp) (by simp) (by simp)) fun k => ?_
      refine Safe.bind (fun _ => ?_) (safe_destroy hn (by simp))
      refine Safe.bind (fun _ => ?_) (safe_destroy hn (by simp))
      refine Safe.weaken (fun _ s' hs => ⟨k, ?_⟩) (safe_destroy hn (by simp))
      rw [hs]
      simp
    · unfold sparseObject cooConstruct
      simp only [Prog.andThen_andThen]
      refine Tidy.new hn ?_
      refine Tidy.check hn ?_
      refine Tidy.new hn ?_
      refine Tidy.check hn ?_
      refine Tidy.new hn ?_
      refine Tidy.check hn ?_
      refine safe_tryFinally (Q := fun r => r = .ok ()) (mid := (nx + 2) :: (nx + 1) :: nx :: lv)
        (hsweeps _ _ _ sweeps ⟨nx + 3, (nx + 2) :: (nx + 1) :: nx :: lv⟩ (by simp) (by simp) (by simp)) fun k => ?_
      refine Safe.bind (fun _ => ?_) (safe_destroy hn (by simp))
      refine Safe.bind (fun _ => ?_) (safe_destroy hn (by simp))
      refine Safe.weaken (fun _ s' hs => ⟨k, ?_⟩) (safe_destroy hn (by simp))
      rw [hs]
      simp
    · refine Tidy.new hn (Tidy.check hn (safe_tryFinally (Q := fun r => r = .ok ()) (mid := nx :: lv)
        (Tidy.use (by simp) (Tidy.done rfl)) fun k => ?_))
      exact Safe.weaken (fun _ s' hs => ⟨k, hs⟩) (safe_free (h' := ⟨k, lv⟩) (by simp) (by simp [OwnBlocks.without]))
    · refine Tidy.new hn (safe_tryFinally (Q := fun r => r = .ok ()) (mid := nx :: lv)
        (Tidy.use (by simp) (Tidy.done rfl)) fun k => ?_)
      exact Safe.weaken (fun _ s' hs => ⟨k, by rw [hs]; simp⟩) (safe_destroy hn (h := ⟨k, nx :: lv⟩) (by simp))
  obtain ⟨r, s', ha, ⟨hr, k, hk⟩, hg⟩ := safe_alone (memGuar_refl fails _ me) (memGuar_trans fails _ me) key rfl
  refine ⟨s', by rw [ha, hr], hg.2.1 hn, fun t => ?_⟩
  by_cases ht : t = me
  · rw [ht, hk]
  · rw [hg.1 t ht]

example : ∃ s', (sparseObject (csrConstruct (fun _ => false) 0) (csrDestruct fun _ => false)
    (fun m => solveSweeps (fun _ => false) m 2)).alone emptyMem = some (.ok (), s') ∧ s'.broken = false ∧
    (s'.heaps 0).live = [] ∧ (s'.heaps 0).next = 3 ∧ s'.calls = 14 :=
  ⟨_, rfl, by decide, by decide, by decide, by decide⟩

/-- The blocks that thread 0 still has after a call, and whether the process broke. -/
def leftOver (p : NativeProg (Except Err Unit)) : Option (Except Err Unit × List Nat × Bool) :=
  (p.alone emptyMem).map fun r => (r.1, (r.2.heaps 0).live, r.2.broken)

/-- `bpr_update` raises without freeing: each of its fourteen calls after the first allocation that can fail leaves memory behind. -/
theorem C73_bpr_update_violated : ∀ k ∈ List.range 15, 1 ≤ k →
    ∃ live, leftOver (bprUpdateMemory (fun i => i == k) 0) = some (.error .runtimeError, live, false) ∧ live ≠ [] := by
  intro k hk h1
  rw [List.mem_range] at hk
  have h : k = 1 ∨ k = 2 ∨ k = 3 ∨ k = 4 ∨ k = 5 ∨ k = 6 ∨ k = 7 ∨ k = 8 ∨ k = 9 ∨ k = 10 ∨ k = 11 ∨ k = 12 ∨ k = 13 ∨ k = 14 := by
    omega
  rcases h with rfl | rfl | rfl | rfl | rfl | rfl | rfl | rfl | rfl | rfl | rfl | rfl | rfl | rfl <;> exact ⟨_, rfl, by decide⟩

/-- The constructors of `CSRMatrix` and `COOMatrix`, and of `RandomState`, leave what they had allocated when a later call fails. -/
theorem C73_constructor_violated :
    leftOver (sparseObject (csrConstruct (fun i => i == 3) 0) (csrDestruct fun i => i == 3) fun m => solveWith (fun i => i == 3) m) =
      some (.error .runtimeError, [0], false) ∧
    leftOver (sparseObject (cooConstruct (fun i => i == 4) 0) (cooDestruct fun i => i == 4) fun m => solveWith (fun i => i == 4) m) =
      some (.error .runtimeError, [1, 0], false) ∧
    leftOver (randomObject (fun i => i == 1) 0 fun _ => .done (.ok ())) = some (.error .runtimeError, [0], false) :=
  ⟨rfl, rfl, rfl⟩

/-- After a CUDA error every later call of the process fails too (`cudaErrorIllegalAddress` and the like): when the exception of
`least_squares` has been raised and the matrix is destroyed, the destructor throws and the process ends. -/
theorem C73_destructor_violated :
    (leftOver (sparseObject (csrConstruct (fun i => decide (9 ≤ i)) 0) (csrDestruct fun i => decide (9 ≤ i))
      fun m => solveWith (fun i => decide (9 ≤ i)) m)).map (fun r => r.2.2) = some true ∧
    (leftOver (solverObject (fun i => decide (1 ≤ i)) 0 fun _ => .done (.ok ()))).map (fun r => r.2.2) = some true :=
  ⟨rfl, rfl⟩

/-! ## Device memory of matrices -/

/-- For every history of matrices (made, shared, copied, resized, used, also by calls that run without the interpreter lock, and
dropped, with any of the library calls failing): a buffer exists exactly as long as some matrix lies in it, memory is never used
after it was freed, and nothing is left when there are no matrices any more.  Missing: arrays of other libraries are freed only when
no matrix uses them, `resize` is not called while a call uses the matrix, and the copy of `resize` does not fail. -/
theorem C73_matrix_memory_partial (foreign : List Nat) (ops : List BufOp) (hc : AllCareful (.start foreign) ops) :
    let s := (BufState.start foreign).run ops
    s.broken = false ∧ s.live.Nodup ∧
    (∀ n, n ∈ s.live ↔ ∃ (k : Nat) (m : BufMatrix), s.objs[k]? = some (some m) ∧ m.storage = some n) ∧
    (∀ (k : Nat) (m : BufMatrix), s.objs[k]? = some (some m) → s.valid m.data = true) ∧
    ((∀ o ∈ s.objs, o = none) → s.live = []) := by
  intro s
  have h : BufInv s none := (bufInv_start foreign).run ops hc
  refine ⟨h.sound, h.nodup, fun n => ?_, fun k m hm => h.valid hm, fun hnone => ?_⟩
  · rw [h.owned]
    simp [BufState.Refers]
  · rw [List.eq_nil_iff_forall_not_mem]
    intro n hn
    rcases (h.owned n).mp hn with ⟨k, m, hm, _⟩ | h'
    · cases hnone _ (List.mem_of_getElem? hm)
    · cases h'

/-- A matrix, a slice of it, the matrix resized and dropped: the slice keeps the first buffer. -/
def sliceHistory : List BufOp :=
  [.create false false, .share 0 false, .enter 1, .resize 0 false false false false, .drop 0, .create true false, .leave, .use 1]

example : AllCareful (.start []) sliceHistory ∧ ((BufState.start []).run sliceHistory).live = [0] ∧
    ((BufState.start []).run (sliceHistory ++ [.drop 1])).live = [] ∧
    ((BufState.start []).run (sliceHistory ++ [.drop 1])).broken = false :=
  ⟨⟨trivial, trivial, trivial, ⟨rfl, by decide⟩, trivial, trivial, trivial, trivial, trivial⟩, by decide, by decide, by decide⟩

/-- A `Matrix` made from an array of another library does not keep it: when that array is freed, the matrix uses freed memory. -/
theorem C73_foreign_violated :
    ((BufState.start [7]).run [.wrap 7, .use 0]).broken = false ∧
    ((BufState.start [7]).run [.wrap 7, .dropForeign 7, .use 0]).broken = true := by decide

/-- `resize` (in `partial_fit_users` and `partial_fit_items`) frees the buffer that a query of another thread is using. -/
theorem C73_resize_race_violated :
    ((BufState.start []).run [.create false false, .enter 0, .leave, .resize 0 false false false false]).broken = false ∧
    ((BufState.start []).run [.create false false, .enter 0, .resize 0 false false false false, .leave]).broken = true := by decide

/-- When the copy of `resize` fails, the new buffer is lost. -/
theorem C73_resize_leak_violated :
    let s := (BufState.start []).run [.create false false, .resize 0 false false true false, .drop 0]
    s.objs = [none] ∧ s.live = [1] := by decide

end Implicit
