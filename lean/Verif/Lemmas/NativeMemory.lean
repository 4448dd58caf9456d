import Verif.Model.NativeMemory
import Verif.Lemmas.Threads
/-!
# Parallel sections that allocate memory per thread
-/

namespace Implicit

/-- What a thread relies on: nobody else touches its blocks, the process does not break as long as no allocation fails, and an
exception that was raised stays. -/
def memRely (fails : Nat → Bool) (me : Nat) (s s' : NativeMem) : Prop :=
  s'.heaps me = s.heaps me ∧ ((∀ n, fails n = false) → s'.broken = s.broken) ∧ (s.broken = true → s'.broken = true) ∧
    (s.why.isSome = true → s'.why = s.why)

/-- What it guarantees; `bad e` holds for the exceptions its iterations can raise. -/
def memGuar (fails : Nat → Bool) (bad : Err → Prop) (me : Nat) (s s' : NativeMem) : Prop :=
  (∀ t, t ≠ me → s'.heaps t = s.heaps t) ∧ ((∀ n, fails n = false) → s'.broken = s.broken) ∧
    (s.broken = true → s'.broken = true) ∧ (s.why.isSome = true → s'.why = s.why) ∧
    ∀ e, s'.why = some e → s.why = some e ∨ bad e

theorem Safe.pure {S α : Type} {rely guar : S → S → Prop} {blocked : S → Prop} {post : α → S → Prop} {K : S → Prop} {P : Prop}
    {p : Prog S α} (h : P → Safe rely guar blocked post p K) :
    Safe rely guar blocked post p (fun s => P ∧ K s) := by
  by_cases hP : P
  · refine Safe.pre (K := K) ?_ (fun s hs => hs.2) (h hP)
    exact fun s s' hs hr => ⟨hP, (h hP).stable s s' hs.2 hr⟩
  · exact Safe.of_false (fun s hs => hP hs.1) p

section

variable {fails : Nat → Bool} {bad : Err → Prop} {me : Nat} {blocked : NativeMem → Prop}

theorem own_stable (h : OwnBlocks) : Stable (memRely fails me) fun s => s.heaps me = h :=
  fun s s' hs hr => by
    show s'.heaps me = h
    rw [hr.1]
    exact hs

theorem pure_own_stable (P : Prop) (h : OwnBlocks) : Stable (memRely fails me) fun s => P ∧ s.heaps me = h :=
  fun s s' hs hr => ⟨hs.1, by rw [hr.1]; exact hs.2⟩

/-- The blocks after an allocation. -/
def OwnBlocks.after (h : OwnBlocks) : Option MemBlock → OwnBlocks
  | none => h
  | some _ => ⟨h.next + 1, h.next :: h.live⟩

/-- The blocks after a release. -/
def OwnBlocks.without (h : OwnBlocks) : Option MemBlock → OwnBlocks
  | none => h
  | some b => ⟨h.next, h.live.erase b.number⟩

/-- The pointer an allocation returns. -/
def MallocGives (fails : Nat → Bool) (me : Nat) (h : OwnBlocks) (p : Option MemBlock) : Prop :=
  (p = none ∧ ¬ ∀ n, fails n = false) ∨ p = some ⟨me, h.next⟩

theorem safe_malloc (h : OwnBlocks) :
    Safe (memRely fails me) (memGuar fails bad me) blocked
      (fun p s => MallocGives fails me h p ∧ s.heaps me = h.after p) (mallocProg fails me) (fun s => s.heaps me = h) := by
  refine Safe.atomic (own_stable h) (fun p => pure_own_stable _ _) fun s hs => ?_
  simp only [Nat.add_sub_cancel]
  split_ifs with hf
  · exact ⟨⟨fun _ _ => rfl, fun _ => rfl, id, fun _ => rfl, fun e he => .inl he⟩,
      .inl ⟨rfl, fun hn => by rw [hn] at hf; cases hf⟩, hs⟩
  · refine ⟨⟨fun t ht => ?_, fun _ => rfl, id, fun _ => rfl, fun e he => .inl he⟩, .inr ?_, ?_⟩
    · simp [NativeMem.alloc, Function.update, ht]
    · simp [NativeMem.alloc, hs]
    · simp [NativeMem.alloc, OwnBlocks.after, hs]

/-- Using a pointer: fine if it is one of the thread's blocks; it can only be null if an allocation failed. -/
theorem safe_use {h : OwnBlocks} {p : Option MemBlock} {number : Nat} (hp : (p = none ∧ ¬ ∀ n, fails n = false) ∨ p = some ⟨me, number⟩)
    (hl : number ∈ h.live ∨ p = none) :
    Safe (memRely fails me) (memGuar fails bad me) blocked (fun _ s => s.heaps me = h) (useProg p) (fun s => s.heaps me = h) := by
  refine Safe.write (own_stable h) (own_stable h) fun s hs => ?_
  rcases hp with ⟨rfl, hn⟩ | rfl
  · exact ⟨⟨fun _ _ => rfl, fun hn' => absurd hn' hn, fun _ => rfl, fun _ => rfl, fun e he => .inl he⟩, hs⟩
  · have hl' : number ∈ h.live := hl.resolve_right (by simp)
    have : s.isLive ⟨me, number⟩ = true := by
      unfold NativeMem.isLive
      rw [hs]
      simpa using hl'
    simp only [this, if_true]
    exact ⟨⟨fun _ _ => rfl, fun _ => rfl, id, fun _ => rfl, fun e he => .inl he⟩, hs⟩

/-- Freeing one of the thread's blocks, or a null pointer. -/
theorem safe_free {h h' : OwnBlocks} {p : Option MemBlock} (hp : ∀ b, p = some b → b.owner = me ∧ b.number ∈ h.live)
    (hh : h' = h.without p) :
    Safe (memRely fails me) (memGuar fails bad me) blocked (fun _ s => s.heaps me = h') (freeProg p) (fun s => s.heaps me = h) := by
  refine Safe.write (own_stable h) (own_stable h') fun s hs => ?_
  cases p with
  | none => exact ⟨⟨fun _ _ => rfl, fun _ => rfl, id, fun _ => rfl, fun e he => .inl he⟩, by rw [hh]; exact hs⟩
  | some b =>
    obtain ⟨ho, hl⟩ := hp b rfl
    have : s.isLive b = true := by
      unfold NativeMem.isLive
      rw [ho, hs]
      simpa using hl
    simp only [this, if_true]
    refine ⟨⟨fun t ht => ?_, fun _ => rfl, id, fun _ => rfl, fun e he => .inl he⟩, ?_⟩
    · simp [NativeMem.release, Function.update, ho, ht]
    · simp [NativeMem.release, ho, hs, hh, OwnBlocks.without]

/-- What is known about an iteration: `Raises u e` if iteration `u` raises `e`. -/
def IterationEnds (Raises : Nat → Err → Prop) (u : Nat) : Except Err Unit → Prop
  | .ok () => ∀ e, ¬ Raises u e
  | .error e => Raises u e

theorem safe_prange {Raises : Nat → Err → Prop} {h : OwnBlocks} {body : Nat → NativeProg (Except Err Unit)} :
    ∀ tasks : List Nat, (∀ u ∈ tasks, ∀ e, Raises u e → bad e) →
    (∀ u ∈ tasks, Safe (memRely fails me) (memGuar fails bad me) blocked
      (fun r s => IterationEnds Raises u r ∧ s.heaps me = h) (body u) (fun s => s.heaps me = h)) →
    Safe (memRely fails me) (memGuar fails bad me) blocked
      (fun _ s => ((∀ u ∈ tasks, ∀ e, ¬ Raises u e) ∨ s.why.isSome = true) ∧ s.heaps me = h)
      (prangeProg body tasks) (fun s => s.heaps me = h)
  | [], _, _ => Safe.done (own_stable h) fun s hs => ⟨.inl (by simp), hs⟩
  | u :: us, hbad, hbody => by
    have hwhy : ∀ P : Prop, Stable (memRely fails me) fun s => (P ∨ s.why.isSome = true) ∧ s.heaps me = h := by
      intro P s s' hs hr
      refine ⟨hs.1.imp id fun hw => ?_, by rw [hr.1]; exact hs.2⟩
      rw [hr.2.2.2 hw]
      exact hw
    refine Safe.bind (post := fun stop s => (stop = false ∨ s.why.isSome = true) ∧ s.heaps me = h) (fun stop => ?_)
      (Safe.read (own_stable h) (fun stop => hwhy _) (fun s _ => ⟨fun _ _ => rfl, fun _ => rfl, id, fun _ => rfl, fun e he => .inl he⟩)
        fun s hs => ⟨?_, hs⟩)
    · cases stop with
      | true =>
        refine Safe.done (hwhy _) fun s hs => ⟨.inr ?_, hs.2⟩
        simpa using hs.1
      | false =>
        refine Safe.pre (K := fun s => s.heaps me = h) (hwhy _) (fun s hs => hs.2) ?_
        refine Safe.bind (fun r => ?_) (hbody u (by simp))
        refine Safe.pure fun hr => ?_
        cases r with
        | ok a =>
          refine Safe.weaken ?_ (safe_prange us (fun v hv => hbad v (by simp [hv])) fun v hv => hbody v (by simp [hv]))
          rintro _ s ⟨hs, hs'⟩
          refine ⟨hs.imp (fun hn v hv => ?_) id, hs'⟩
          rcases List.mem_cons.mp hv with rfl | hv
          · exact hr
          · exact hn v hv
        | error e =>
          have hr' : Raises u e := hr
          refine Safe.bind (post := fun _ s => (False ∨ s.why.isSome = true) ∧ s.heaps me = h) (fun _ => ?_)
            (Safe.write (own_stable h) (hwhy _) fun s hs => ⟨⟨fun _ _ => rfl, fun _ => rfl, id, fun hw => ?_, fun e' he' => ?_⟩, ?_, hs⟩)
          · exact Safe.done (hwhy _) fun s hs => ⟨.inr (by simpa using hs.1), hs.2⟩
          · obtain ⟨e', he'⟩ := Option.isSome_iff_exists.mp hw
            simp [he']
          · cases hw : s.why with
            | none =>
              simp only [hw, Option.orElse] at he'
              cases he'
              exact .inr (hbad u (by simp) e hr')
            | some e2 =>
              simp only [hw, Option.orElse] at he'
              exact .inl he'
          · right
            cases hw : s.why <;> simp
    · cases hw : s.why.isSome
      · exact .inl rfl
      · exact .inr rfl

end

theorem Safe.canRun {S α : Type} {rely guar : S → S → Prop} {post : α → S → Prop} {K : S → Prop} {s : S} :
    ∀ {p : Prog S α}, Safe rely guar (fun _ => False) post p K → K s → p.value?.isSome = false → p.canRun s = true
  | .done _, _, _, h => by cases h
  | .step ready _ _, h, hK, _ => by
    cases hr : ready s with
    | true => exact hr
    | false => exact (h.2.1 s hK hr).elim

/-- Guarantees of the others are what a thread relies on. -/
theorem mem_others {n : Nat} (fails : Nat → Bool) (bad : Fin n → Err → Prop) (i j : Fin n) (s s' : NativeMem) (hij : i ≠ j)
    (h : memGuar fails (bad j) j.val s s') : memRely fails i.val s s' :=
  ⟨h.1 i.val fun e => hij (Fin.ext e), h.2.1, h.2.2.1, h.2.2.2.1⟩

theorem section_results {n : Nat} (fails : Nat → Bool) (Raises : Nat → Err → Prop) (tasks : Fin n → List Nat)
    (threads : Fin n → NativeProg (Except Err Unit)) (s : NativeMem) (hwhy : s.why = none)
    (Released : List Nat → NativeMem → OwnBlocks → Prop)
    (hsafe : ∀ i : Fin n, Safe (memRely fails i.val) (memGuar fails (fun e => ∃ u ∈ tasks i, Raises u e) i.val) (fun _ => False)
      (fun _ s' => Released (s.heaps i.val).live s' (s'.heaps i.val) ∧ ((∀ u ∈ tasks i, ∀ e, ¬ Raises u e) ∨ s'.why.isSome = true ∨
        ¬ ∀ n, fails n = false))
      (threads i) (fun s' => s'.heaps i.val = s.heaps i.val)) (schedule : List Nat) :
    let c := (parallelSection s threads).run schedule
    ((∀ n, fails n = false) → c.state.broken = s.broken) ∧
    (∀ t, n ≤ t → c.state.heaps t = s.heaps t) ∧
    (∀ e, c.state.why = some e → ∃ i, ∃ u ∈ tasks i, Raises u e) ∧
    (c.finished = true → (∀ i : Fin n, Released (s.heaps i.val).live c.state (c.state.heaps i.val)) ∧
      ((∀ n, fails n = false) → (∃ i, ∃ u ∈ tasks i, ∃ e, Raises u e) → c.state.why.isSome = true)) ∧
    ∀ fair : Nat → Nat, (∀ i < n, ∀ m, ∃ k, m ≤ k ∧ fair k = i) →
      ∃ m, ((parallelSection s threads).run ((List.range m).map fair)).finished = true := by
  intro c
  have h0 : AllSafe (fun i : Fin n => memRely fails i.val)
      (fun i : Fin n => memGuar fails (fun e => ∃ u ∈ tasks i, Raises u e) i.val) (fun _ _ => False)
      (fun i _ s' => Released (s.heaps i.val).live s' (s'.heaps i.val) ∧ ((∀ u ∈ tasks i, ∀ e, ¬ Raises u e) ∨ s'.why.isSome = true ∨
        ¬ ∀ n, fails n = false)) (parallelSection s threads) := by
    refine ⟨by simp [parallelSection], fun i p hp => ⟨fun s' => s'.heaps i.val = s.heaps i.val, rfl, ?_⟩⟩
    simp only [parallelSection, List.getElem?_ofFn, Fin.is_lt, dite_true, Option.some.injEq] at hp
    rw [← hp]
    exact hsafe i
  have hrun := AllSafe.run (mem_others fails fun i e => ∃ u ∈ tasks i, Raises u e) schedule h0
  have hinv := AllSafe.invariant (mem_others fails fun i e => ∃ u ∈ tasks i, Raises u e)
    (I := fun s' => ((∀ n, fails n = false) → s'.broken = s.broken) ∧ (∀ t, n ≤ t → s'.heaps t = s.heaps t) ∧
      ∀ e, s'.why = some e → ∃ i, ∃ u ∈ tasks i, Raises u e) ?_ schedule h0
    ⟨fun _ => rfl, fun _ _ => rfl, fun e he => by
      have : s.why = some e := he
      rw [hwhy] at this
      cases this⟩
  · refine ⟨hinv.1, hinv.2.1, hinv.2.2, fun hfin => ?_, fun fair hfair => ?_⟩
    swap
    · refine Proc.fair_finishes (AllSafe (fun i : Fin n => memRely fails i.val)
          (fun i : Fin n => memGuar fails (fun e => ∃ u ∈ tasks i, Raises u e) i.val) (fun _ _ => False)
          (fun i _ s' => Released (s.heaps i.val).live s' (s'.heaps i.val) ∧ ((∀ u ∈ tasks i, ∀ e, ¬ Raises u e) ∨
            s'.why.isSome = true ∨ ¬ ∀ n, fails n = false))) (fun c i hc => (AllSafe.step (mem_others fails fun i e => ∃ u ∈ tasks i, Raises u e) hc i).1) ?_ _ h0 n
        h0.1 fair hfair
      intro c hc hfin
      obtain ⟨p, hp, hv⟩ := List.all_eq_false.mp hfin
      obtain ⟨i, hi, rfl⟩ := List.getElem_of_mem hp
      obtain ⟨K, hK, hs⟩ := hc.2 ⟨i, hc.1 ▸ hi⟩ _ (List.getElem?_eq_getElem hi)
      exact ⟨i, _, List.getElem?_eq_getElem hi, hs.canRun hK (by simpa using hv)⟩
    have hres : ∀ i : Fin n, ∃ a, c.result i.val = some a := by
      intro i
      have hlen : c.threads.length = n := hrun.1
      have hmem : c.threads[i.val]'(by rw [hlen]; exact i.isLt) ∈ c.threads := List.getElem_mem _
      have hv := List.all_eq_true.mp hfin _ hmem
      obtain ⟨a, ha⟩ := Option.isSome_iff_exists.mp hv
      refine ⟨a, ?_⟩
      unfold Proc.result
      rw [List.getElem?_eq_getElem (by rw [hlen]; exact i.isLt)]
      exact ha
    refine ⟨fun i => ?_, fun hn ⟨i, u, hu, e, he⟩ => ?_⟩
    · obtain ⟨a, ha⟩ := hres i
      exact (hrun.result i a ha).1
    · obtain ⟨a, ha⟩ := hres i
      rcases (hrun.result i a ha).2 with h | h | h
      · exact absurd he (h u hu e)
      · exact h
      · exact absurd hn h
  · rintro i s1 s2 ⟨h1, h2, h3⟩ hg
    refine ⟨fun hn => by rw [hg.2.1 hn]; exact h1 hn, fun t ht => ?_, fun e he => ?_⟩
    · rw [hg.1 t (by have := i.isLt; omega)]
      exact h2 t ht
    · rcases hg.2.2.2.2 e he with h | h
      · exact h3 e h
      · exact ⟨i, h⟩

/-! ## The threads of the sections -/

section

variable {fails : Nat → Bool} {me : Nat}

theorem why_stable {bad : Err → Prop} (P : Prop) :
    Stable (memRely fails me) (fun s => P ∨ s.why.isSome = true) ∧
      Stable (memGuar fails bad me) (fun s => P ∨ s.why.isSome = true) := by
  constructor
  · intro s s' hs hr
    refine hs.imp id fun hw => ?_
    rw [hr.2.2.2 hw]
    exact hw
  · intro s s' hs hr
    refine hs.imp id fun hw => ?_
    rw [hr.2.2.2.1 hw]
    exact hw

/-- `try: for … in prange finally: …` with the blocks `h` before and `h'` after the `finally`. -/
theorem safe_section {Raises : Nat → Err → Prop} {h h' : OwnBlocks} {body : Nat → NativeProg (Except Err Unit)}
    {fin : NativeProg Unit} (tasks : List Nat)
    (hbody : ∀ u ∈ tasks, Safe (memRely fails me) (memGuar fails (fun e => ∃ u ∈ tasks, Raises u e) me) (fun _ => False)
      (fun r s => IterationEnds Raises u r ∧ s.heaps me = h) (body u) (fun s => s.heaps me = h))
    (hfin : Safe (memRely fails me) (memGuar fails (fun e => ∃ u ∈ tasks, Raises u e) me) (fun _ => False)
      (fun _ s => s.heaps me = h') fin (fun s => s.heaps me = h)) :
    Safe (memRely fails me) (memGuar fails (fun e => ∃ u ∈ tasks, Raises u e) me) (fun _ => False)
      (fun _ s => (∃ k, s.heaps me = ⟨k, h'.live⟩) ∧ ((∀ u ∈ tasks, ∀ e, ¬ Raises u e) ∨ s.why.isSome = true ∨ ¬ ∀ n, fails n = false))
      (tryFinally (prangeProg body tasks) fin) (fun s => s.heaps me = h) := by
  refine Safe.bind (fun r => ?_) (safe_prange tasks (fun u hu e he => ⟨u, hu, he⟩) hbody)
  have hw := why_stable (fails := fails) (me := me) (bad := fun e => ∃ u ∈ tasks, Raises u e) (∀ u ∈ tasks, ∀ e, ¬ Raises u e)
  have hf := hfin.frame hw.1 hw.2
  refine Safe.bind (post := fun _ s => s.heaps me = h' ∧ ((∀ u ∈ tasks, ∀ e, ¬ Raises u e) ∨ s.why.isSome = true)) (fun _ => ?_)
    (Safe.pre ?_ (fun s hs => ⟨hs.2, hs.1⟩) hf)
  · refine Safe.done ?_ fun s hs => ⟨⟨h'.next, hs.1⟩, hs.2.imp id .inl⟩
    exact fun s s' hs hr => ⟨by rw [hr.1]; exact hs.1, hw.1 s s' hs.2 hr⟩
  · exact fun s s' hs hr => ⟨hw.1 s s' hs.1 hr, by rw [hr.1]; exact hs.2⟩

/-- The exceptions of `_least_squares`. -/
def AlsRaises (rows : Nat → AlsRow) (u : Nat) (e : Err) : Prop := rows u = .failed ∧ e = .valueError

theorem safe_als (rows : Nat → AlsRow) (tasks : List Nat) (h : OwnBlocks) :
    Safe (memRely fails me) (memGuar fails (fun e => ∃ u ∈ tasks, AlsRaises rows u e) me) (fun _ => False)
      (fun _ s => (∃ k, s.heaps me = ⟨k, h.live⟩) ∧
        ((∀ u ∈ tasks, ∀ e, ¬ AlsRaises rows u e) ∨ s.why.isSome = true ∨ ¬ ∀ n, fails n = false))
      (alsThread fails rows me tasks) (fun s => s.heaps me = h) := by
  refine Safe.bind (fun A => Safe.pure fun hA => ?_) (safe_malloc h)
  refine Safe.bind (fun b => Safe.pure fun hb => ?_) (safe_malloc (h.after A))
  refine Safe.weaken ?_ (safe_section (h := (h.after A).after b) (h' := ⟨((h.after A).after b).next, h.live⟩) tasks (fun u _ => ?_) ?_)
  · exact fun _ _ hs => hs
  · have hAl : h.next ∈ ((h.after A).after b).live ∨ A = none := by
      rcases hA with ⟨rfl, _⟩ | rfl
      · exact .inr rfl
      · left; cases b <;> simp [OwnBlocks.after]
    have hbl : (h.after A).next ∈ ((h.after A).after b).live ∨ b = none := by
      rcases hb with ⟨rfl, _⟩ | rfl
      · exact .inr rfl
      · left; simp [OwnBlocks.after]
    cases hr : rows u with
    | empty => exact Safe.done (own_stable _) fun s hs => ⟨fun e he => by simp [AlsRaises, hr] at he, hs⟩
    | solved =>
      refine Safe.bind (fun _ => ?_) (safe_use hA hAl)
      refine Safe.bind (fun _ => ?_) (safe_use hb hbl)
      refine Safe.bind (fun _ => ?_) (safe_use hb hbl)
      exact Safe.done (own_stable _) fun s hs => ⟨fun e he => by simp [AlsRaises, hr] at he, hs⟩
    | failed =>
      refine Safe.bind (fun _ => ?_) (safe_use hA hAl)
      refine Safe.bind (fun _ => ?_) (safe_use hb hbl)
      exact Safe.done (own_stable _) fun s hs => ⟨⟨hr, rfl⟩, hs⟩
  · rcases hA with ⟨rfl, _⟩ | rfl <;> rcases hb with ⟨rfl, _⟩ | rfl
    · refine Safe.bind (fun _ => ?_) (safe_free (h' := h) (by simp) rfl)
      exact safe_free (by simp) rfl
    · refine Safe.bind (fun _ => ?_) (safe_free (h' := ⟨h.next + 1, h.next :: h.live⟩) (by simp) rfl)
      exact safe_free (by simp [OwnBlocks.after, OwnBlocks.without]) (by simp [OwnBlocks.after, OwnBlocks.without])
    · refine Safe.bind (fun _ => ?_) (safe_free (h' := ⟨h.next + 1, h.live⟩) (by simp [OwnBlocks.after, OwnBlocks.without]) (by simp [OwnBlocks.after, OwnBlocks.without]))
      exact safe_free (by simp) (by simp [OwnBlocks.after, OwnBlocks.without])
    · refine Safe.bind (fun _ => ?_) (safe_free (h' := ⟨h.next + 2, (h.next + 1) :: h.live⟩) (by simp [OwnBlocks.after, OwnBlocks.without])
        (by simp [OwnBlocks.after, OwnBlocks.without, List.erase_cons]))
      exact safe_free (by simp [OwnBlocks.after, OwnBlocks.without]) (by simp [OwnBlocks.after, OwnBlocks.without])

theorem safe_cg (rows : Nat → Option Bool) (tasks : List Nat) (h : OwnBlocks) :
    Safe (memRely fails me) (memGuar fails (fun e => ∃ u ∈ tasks, (fun _ _ => False : Nat → Err → Prop) u e) me) (fun _ => False)
      (fun _ s => (∃ k, s.heaps me = ⟨k, h.live⟩) ∧
        ((∀ u ∈ tasks, ∀ e, ¬ (fun _ _ => False : Nat → Err → Prop) u e) ∨ s.why.isSome = true ∨ ¬ ∀ n, fails n = false))
      (cgThread fails rows me tasks) (fun s => s.heaps me = h) := by
  refine Safe.bind (fun Ap => Safe.pure fun hA => ?_) (safe_malloc h)
  refine Safe.bind (fun p => Safe.pure fun hp => ?_) (safe_malloc (h.after Ap))
  refine Safe.bind (fun r => Safe.pure fun hr => ?_) (safe_malloc ((h.after Ap).after p))
  refine safe_section (h := ((h.after Ap).after p).after r) (h' := ⟨(((h.after Ap).after p).after r).next, h.live⟩) tasks
    (fun u _ => ?_) ?_
  · have hAl : h.next ∈ (((h.after Ap).after p).after r).live ∨ Ap = none := by
      rcases hA with ⟨rfl, _⟩ | rfl
      · exact .inr rfl
      · left; cases p <;> cases r <;> simp [OwnBlocks.after]
    have hpl : (h.after Ap).next ∈ (((h.after Ap).after p).after r).live ∨ p = none := by
      rcases hp with ⟨rfl, _⟩ | rfl
      · exact .inr rfl
      · left; cases r <;> simp [OwnBlocks.after]
    have hrl : ((h.after Ap).after p).next ∈ (((h.after Ap).after p).after r).live ∨ r = none := by
      rcases hr with ⟨rfl, _⟩ | rfl
      · exact .inr rfl
      · left; simp [OwnBlocks.after]
    cases hu : rows u with
    | none => exact Safe.done (own_stable _) fun s hs => ⟨fun e he => he, hs⟩
    | some more =>
      refine Safe.bind (fun _ => ?_) (safe_use hr hrl)
      refine Safe.bind (fun _ => ?_) (safe_use hp hpl)
      cases more with
      | false => exact Safe.done (own_stable _) fun s hs => ⟨fun e he => he, hs⟩
      | true =>
        refine Safe.bind (fun _ => ?_) (safe_use hA hAl)
        refine Safe.bind (fun _ => ?_) (safe_use hr hrl)
        refine Safe.bind (fun _ => ?_) (safe_use hp hpl)
        exact Safe.done (own_stable _) fun s hs => ⟨fun e he => he, hs⟩
  · refine Safe.bind (fun _ => ?_) (safe_free (h' := (((h.after Ap).after p).after r).without p) ?_ rfl)
    · refine Safe.bind (fun _ => ?_) (safe_free (h' := ((((h.after Ap).after p).after r).without p).without r) ?_ rfl)
      · refine safe_free ?_ ?_
        · intro b hb
          rcases hA with ⟨rfl, _⟩ | rfl
          · cases hb
          · cases hb
            rcases hr with ⟨rfl, _⟩ | rfl <;> rcases hp with ⟨rfl, _⟩ | rfl <;>
              simp [OwnBlocks.after, OwnBlocks.without, List.erase_cons]
        · rcases hA with ⟨rfl, _⟩ | rfl <;> rcases hr with ⟨rfl, _⟩ | rfl <;> rcases hp with ⟨rfl, _⟩ | rfl <;>
            simp [OwnBlocks.after, OwnBlocks.without, List.erase_cons]
      · intro b hb
        rcases hr with ⟨rfl, _⟩ | rfl
        · cases hb
        · cases hb
          rcases hp with ⟨rfl, _⟩ | rfl <;> simp [OwnBlocks.after, OwnBlocks.without, List.erase_cons]
    · intro b hb
      rcases hp with ⟨rfl, _⟩ | rfl
      · cases hb
      · cases hb
        cases r <;> simp [OwnBlocks.after]

/-- One allocation, used in some of the iterations. -/
theorem safe_single (skip : Nat → Bool) (tasks : List Nat) (h : OwnBlocks) :
    Safe (memRely fails me) (memGuar fails (fun e => ∃ u ∈ tasks, (fun _ _ => False : Nat → Err → Prop) u e) me) (fun _ => False)
      (fun _ s => (∃ k, s.heaps me = ⟨k, h.live⟩) ∧
        ((∀ u ∈ tasks, ∀ e, ¬ (fun _ _ => False : Nat → Err → Prop) u e) ∨ s.why.isSome = true ∨ ¬ ∀ n, fails n = false))
      ((mallocProg fails me).bind fun p => tryFinally
        (prangeProg (fun u => if skip u then .done (.ok ()) else (useProg p).bind fun _ => .done (.ok ())) tasks) (freeProg p))
      (fun s => s.heaps me = h) := by
  refine Safe.bind (fun p => Safe.pure fun hp => ?_) (safe_malloc h)
  refine safe_section (h := h.after p) (h' := ⟨(h.after p).next, h.live⟩) tasks (fun u _ => ?_) ?_
  · split_ifs
    · exact Safe.done (own_stable _) fun s hs => ⟨fun e he => he, hs⟩
    · refine Safe.bind (fun _ => ?_) (safe_use hp ?_)
      · exact Safe.done (own_stable _) fun s hs => ⟨fun e he => he, hs⟩
      · rcases hp with ⟨rfl, _⟩ | rfl
        · exact .inr rfl
        · left; simp [OwnBlocks.after]
  · rcases hp with ⟨rfl, _⟩ | rfl
    · exact safe_free (by simp) (by simp [OwnBlocks.after, OwnBlocks.without])
    · exact safe_free (by simp [OwnBlocks.after, OwnBlocks.without]) (by simp [OwnBlocks.after, OwnBlocks.without])

theorem safe_new {bad : Err → Prop} {blocked : NativeMem → Prop} (h : OwnBlocks) :
    Safe (memRely fails me) (memGuar fails bad me) blocked
      (fun r s => match r with
        | .error _ => (¬ ∀ n, fails n = false) ∧ s.broken = true
        | .ok b => b = ⟨me, h.next⟩ ∧ s.heaps me = ⟨h.next + 1, h.next :: h.live⟩)
      (newProg false fails me) (fun s => s.heaps me = h) := by
  refine Safe.atomic (own_stable h) (fun r => ?_) fun s hs => ?_
  · cases r with
    | error e => exact fun s s' hs hr => ⟨hs.1, hr.2.2.1 hs.2⟩
    | ok b => exact pure_own_stable _ _
  · simp only [Nat.add_sub_cancel]
    cases hf : fails s.calls
    swap
    · have hn : ¬ ∀ n, fails n = false := fun hn => by rw [hn] at hf; cases hf
      exact ⟨⟨fun _ _ => rfl, fun h => absurd h hn, fun _ => rfl, fun _ => rfl, fun e he => .inl he⟩, hn, rfl⟩
    · refine ⟨⟨fun t ht => ?_, fun _ => rfl, id, fun _ => rfl, fun e he => .inl he⟩, ?_, ?_⟩
      · simp [NativeMem.alloc, Function.update, ht]
      · simp [NativeMem.alloc, hs]
      · simp [NativeMem.alloc, hs]

theorem safe_allPairs (update : Nat → Option Err) (tasks : List Nat) (h : OwnBlocks) :
    Safe (memRely fails me) (memGuar fails (fun e => ∃ u ∈ tasks, update u = some e) me) (fun _ => False)
      (fun _ s => (s.broken = true ∨ ∃ k, s.heaps me = ⟨k, h.live⟩) ∧
        ((∀ u ∈ tasks, ∀ e, ¬ update u = some e) ∨ s.why.isSome = true ∨ ¬ ∀ n, fails n = false))
      (allPairsThread fails update me tasks) (fun s => s.heaps me = h) := by
  have herr : Stable (memRely fails me) (fun s => (¬ ∀ n, fails n = false) ∧ s.broken = true) :=
    fun s s' hs hr => ⟨hs.1, hr.2.2.1 hs.2⟩
  refine Safe.andThen (errs := fun _ s => (¬ ∀ n, fails n = false) ∧ s.broken = true)
    (post := fun b s => b = ⟨me, h.next⟩ ∧ s.heaps me = ⟨h.next + 1, h.next :: h.live⟩) ?_ (fun _ => herr)
    (fun e s hs => ⟨.inl hs.2, .inr (.inr hs.1)⟩) fun neighbours => Safe.pure fun hnb => ?_
  · exact Safe.weaken (fun r s hs => by cases r <;> exact hs) (safe_new h)
  refine Safe.andThen (errs := fun _ s => (¬ ∀ n, fails n = false) ∧ s.broken = true)
    (post := fun b s => b = ⟨me, h.next + 1⟩ ∧ s.heaps me = ⟨h.next + 2, (h.next + 1) :: h.next :: h.live⟩) ?_ (fun _ => herr)
    (fun e s hs => ⟨.inl hs.2, .inr (.inr hs.1)⟩) fun topk => Safe.pure fun htk => ?_
  · exact Safe.weaken (fun r s hs => by cases r <;> exact hs) (safe_new ⟨h.next + 1, h.next :: h.live⟩)
  subst hnb htk
  refine Safe.weaken ?_ (safe_section (Raises := fun u e => update u = some e) (h' := ⟨h.next + 2, h.live⟩) tasks (fun u _ => ?_) ?_)
  · exact fun _ _ hs => ⟨.inr hs.1, hs.2⟩
  · refine Safe.bind (fun _ => ?_) (safe_use (.inr rfl) (.inl (by simp)))
    refine Safe.bind (fun _ => ?_) (safe_use (.inr rfl) (.inl (by simp)))
    cases hu : update u with
    | none => exact Safe.done (own_stable _) fun s hs => ⟨fun e he => by simp [hu] at he, hs⟩
    | some e => exact Safe.done (own_stable _) fun s hs => ⟨hu, hs⟩
  · refine Safe.bind (fun _ => ?_) (safe_free (h' := ⟨h.next + 2, (h.next + 1) :: h.live⟩) (by simp) (by simp [OwnBlocks.without, List.erase_cons]))
    exact safe_free (by simp) (by simp [OwnBlocks.without])

end

/-! ## Code that runs in one thread -/

theorem Prog.bind_bind {S α β γ : Type} (k : α → Prog S β) (l : β → Prog S γ) : ∀ p : Prog S α,
    (p.bind k).bind l = p.bind fun a => (k a).bind l
  | .done _ => rfl
  | .step ready act next => by
    show Prog.step ready act _ = Prog.step ready act _
    congr 1
    funext s
    exact Prog.bind_bind k l (next s)

theorem Prog.andThen_andThen {S α β γ : Type} (k : α → Prog S (Except Err β)) (l : β → Prog S (Except Err γ))
    (p : Prog S (Except Err α)) : (p.andThen k).andThen l = p.andThen fun a => (k a).andThen l := by
  unfold Prog.andThen
  rw [Prog.bind_bind]
  congr 1
  funext r
  cases r <;> rfl

theorem safe_alone {S α : Type} {rely guar : S → S → Prop} {post : α → S → Prop} (hrefl : ∀ s, guar s s)
    (htrans : ∀ a b c, guar a b → guar b c → guar a c) :
    ∀ {p : Prog S α} {K : S → Prop} {s : S}, Safe rely guar (fun _ => False) post p K → K s →
      ∃ a s', p.alone s = some (a, s') ∧ post a s' ∧ guar s s'
  | .done a, _, s, h, hK => ⟨a, s, rfl, h.2 s hK, hrefl s⟩
  | .step ready act next, K, s, h, hK => by
    cases hr : ready s with
    | false => exact (h.2.1 s hK hr).elim
    | true =>
      obtain ⟨hg, K', hK', h'⟩ := h.2.2 s hK hr
      obtain ⟨a, s', ha, hp, hg'⟩ := safe_alone hrefl htrans h' hK'
      refine ⟨a, s', ?_, hp, htrans _ _ _ hg hg'⟩
      unfold Prog.alone
      rw [hr]
      exact ha

theorem memGuar_refl (fails : Nat → Bool) (bad : Err → Prop) (me : Nat) (s : NativeMem) : memGuar fails bad me s s :=
  ⟨fun _ _ => rfl, fun _ => rfl, id, fun _ => rfl, fun _ h => .inl h⟩

theorem memGuar_trans (fails : Nat → Bool) (bad : Err → Prop) (me : Nat) (a b c : NativeMem) (h : memGuar fails bad me a b)
    (h' : memGuar fails bad me b c) : memGuar fails bad me a c := by
  refine ⟨fun t ht => by rw [h'.1 t ht, h.1 t ht], fun hn => by rw [h'.2.1 hn, h.2.1 hn], fun hb => h'.2.2.1 (h.2.2.1 hb), fun hw => ?_,
    fun e he => ?_⟩
  · have := h.2.2.2.1 hw
    rw [h'.2.2.2.1 (by rw [this]; exact hw), this]
  · rcases h'.2.2.2.2 e he with h1 | h1
    · exact h.2.2.2.2 e h1
    · exact .inr h1

section

variable {fails : Nat → Bool} {me : Nat} {bad : Err → Prop}

theorem safe_newDeclared {blocked : NativeMem → Prop} (h : OwnBlocks) :
    Safe (memRely fails me) (memGuar fails bad me) blocked
      (fun r s => match r with
        | .error _ => (¬ ∀ n, fails n = false) ∧ s.heaps me = h
        | .ok b => b = ⟨me, h.next⟩ ∧ s.heaps me = ⟨h.next + 1, h.next :: h.live⟩)
      (newProg true fails me) (fun s => s.heaps me = h) := by
  refine Safe.atomic (own_stable h) (fun r => ?_) fun s hs => ?_
  · cases r with
    | error e => exact pure_own_stable _ _
    | ok b => exact pure_own_stable _ _
  · simp only [Nat.add_sub_cancel]
    cases hf : fails s.calls
    swap
    · have hn : ¬ ∀ n, fails n = false := fun hn => by rw [hn] at hf; cases hf
      exact ⟨⟨fun _ _ => rfl, fun h => absurd h hn, id, fun _ => rfl, fun e he => .inl he⟩, hn, hs⟩
    · refine ⟨⟨fun t ht => ?_, fun _ => rfl, id, fun _ => rfl, fun e he => .inl he⟩, ?_, ?_⟩
      · simp [NativeMem.alloc, Function.update, ht]
      · simp [NativeMem.alloc, hs]
      · simp [NativeMem.alloc, hs]

theorem safe_checked {blocked : NativeMem → Prop} (h : OwnBlocks) :
    Safe (memRely fails me) (memGuar fails bad me) blocked
      (fun r s => (r = .ok () ∨ (r = .error .runtimeError ∧ ¬ ∀ n, fails n = false)) ∧ s.heaps me = h)
      (checkedProg fails) (fun s => s.heaps me = h) := by
  refine Safe.atomic (own_stable h) (fun r => pure_own_stable _ _) fun s hs => ?_
  refine ⟨⟨fun _ _ => rfl, fun _ => rfl, id, fun _ => rfl, fun e he => .inl he⟩, ?_, hs⟩
  cases hf : fails s.calls
  · exact .inl rfl
  · exact .inr ⟨rfl, fun hn => by rw [hn] at hf; cases hf⟩

/-- A program that returns normally with the blocks of `live`. -/
def Tidy (fails : Nat → Bool) (bad : Err → Prop) (me : Nat) (live : List Nat) (p : NativeProg (Except Err Unit)) (h : OwnBlocks) : Prop :=
  Safe (memRely fails me) (memGuar fails bad me) (fun _ => False)
    (fun r s => r = .ok () ∧ ∃ k, s.heaps me = ⟨k, live⟩) p (fun s => s.heaps me = h)

theorem Tidy.new (hn : ∀ n, fails n = false) {live : List Nat} {h : OwnBlocks} {k : MemBlock → NativeProg (Except Err Unit)}
    (hk : Tidy fails bad me live (k ⟨me, h.next⟩) ⟨h.next + 1, h.next :: h.live⟩) :
    Tidy fails bad me live ((newProg true fails me).andThen k) h := by
  refine Safe.andThen (errs := fun _ _ => False)
    (post := fun b s => b = ⟨me, h.next⟩ ∧ s.heaps me = ⟨h.next + 1, h.next :: h.live⟩) ?_ (fun _ _ _ hs _ => hs)
    (fun e s hs => hs.elim) fun b => Safe.pure fun hb => ?_
  · refine Safe.weaken (fun r s hs => ?_) (safe_newDeclared h)
    cases r with
    | error e => exact hs.1 hn
    | ok b => exact hs
  · rw [hb]
    exact hk

theorem Tidy.check (hn : ∀ n, fails n = false) {live : List Nat} {h : OwnBlocks} {k : Unit → NativeProg (Except Err Unit)}
    (hk : Tidy fails bad me live (k ()) h) : Tidy fails bad me live ((checkedProg fails).andThen k) h := by
  refine Safe.andThen (errs := fun _ _ => False)
    (post := fun (_ : Unit) (s : NativeMem) => s.heaps me = h) ?_ (fun _ _ _ hs _ => hs) (fun e s hs => hs.elim) fun _ => hk
  refine Safe.weaken (fun r s hs => ?_) (safe_checked h)
  rcases hs with ⟨rfl | ⟨rfl, hf⟩, hs⟩
  · exact hs
  · exact hf hn

theorem Tidy.use {live : List Nat} {h : OwnBlocks} {number : Nat} {k : Unit → NativeProg (Except Err Unit)} (hl : number ∈ h.live)
    (hk : Tidy fails bad me live (k ()) h) : Tidy fails bad me live ((useProg (some ⟨me, number⟩)).bind k) h :=
  Safe.bind (fun _ => hk) (safe_use (.inr rfl) (.inl hl))

theorem Tidy.free {live : List Nat} {h : OwnBlocks} {number : Nat} {k : Unit → NativeProg (Except Err Unit)} (hl : number ∈ h.live)
    (hk : Tidy fails bad me live (k ()) ⟨h.next, h.live.erase number⟩) :
    Tidy fails bad me live ((freeProg (some ⟨me, number⟩)).bind k) h :=
  Safe.bind (fun _ => hk) (safe_free (by simpa using hl) rfl)

theorem Tidy.done {h : OwnBlocks} {live : List Nat} (hl : h.live = live) : Tidy fails bad me live (.done (.ok ())) h :=
  Safe.done (own_stable h) fun s hs => ⟨rfl, h.next, by rw [hs, ← hl]⟩

/-- `CHECK_CUDA(cudaFree(p))` in a destructor. -/
theorem safe_destroy (hn : ∀ n, fails n = false) {h : OwnBlocks} {number : Nat} (hl : number ∈ h.live) :
    Safe (memRely fails me) (memGuar fails bad me) (fun _ => False) (fun _ s => s.heaps me = ⟨h.next, h.live.erase number⟩)
      (destroyProg fails ⟨me, number⟩) (fun s => s.heaps me = h) := by
  refine Safe.bind (fun r => ?_) (safe_checked h)
  refine Safe.pure fun hr => ?_
  rcases hr with rfl | ⟨_, hf⟩
  · exact safe_free (by simpa using hl) rfl
  · exact absurd hn hf

/-- A precondition that leaves something open. -/
theorem Safe.exists {S α ι : Type} {rely guar : S → S → Prop} {blocked : S → Prop} {post : α → S → Prop} {K : ι → S → Prop}
    {p : Prog S α} (h : ∀ i, Safe rely guar blocked post p (K i)) : Safe rely guar blocked post p (fun s => ∃ i, K i s) := by
  have hst : Stable rely fun s => ∃ i, K i s := fun s s' ⟨i, hs⟩ hr => ⟨i, (h i).stable s s' hs hr⟩
  cases p with
  | done a => exact ⟨hst, fun s ⟨i, hs⟩ => (h i).2 s hs⟩
  | step ready act next => exact ⟨hst, fun s ⟨i, hs⟩ => (h i).2.1 s hs, fun s ⟨i, hs⟩ => (h i).2.2 s hs⟩

/-- `p`, then `k` if it did not raise. -/
theorem Tidy.andThen {live mid : List Nat} {h : OwnBlocks} {p : NativeProg (Except Err Unit)} {k : Unit → NativeProg (Except Err Unit)}
    (hp : Tidy fails bad me mid p h) (hk : ∀ n, Tidy fails bad me live (k ()) ⟨n, mid⟩) :
    Tidy fails bad me live (p.andThen k) h := by
  refine Safe.bind (fun r => Safe.pure fun hr => ?_) hp
  subst hr
  exact Safe.exists hk

/-- `try: life finally: fin`, with an exception of `life` passed on. -/
theorem safe_tryFinally {mid live : List Nat} {h : OwnBlocks} {life : NativeProg (Except Err Unit)} {fin : NativeProg Unit}
    {Q : Except Err Unit → Prop}
    (hl : Safe (memRely fails me) (memGuar fails bad me) (fun _ => False) (fun r s => Q r ∧ ∃ k, s.heaps me = ⟨k, mid⟩) life
      (fun s => s.heaps me = h))
    (hf : ∀ k, Safe (memRely fails me) (memGuar fails bad me) (fun _ => False) (fun _ s => ∃ k, s.heaps me = ⟨k, live⟩) fin
      (fun s => s.heaps me = ⟨k, mid⟩)) :
    Safe (memRely fails me) (memGuar fails bad me) (fun _ => False) (fun r s => Q r ∧ ∃ k, s.heaps me = ⟨k, live⟩)
      (tryFinally life fin) (fun s => s.heaps me = h) := by
  refine Safe.bind (fun r => Safe.pure fun hr => ?_) hl
  refine Safe.bind (post := fun _ s => ∃ k, s.heaps me = ⟨k, live⟩) (fun _ => ?_) (Safe.exists hf)
  exact Safe.done (fun s s' ⟨n, hs⟩ hr => ⟨n, by rw [hr.1]; exact hs⟩) fun s hs => ⟨hr, hs⟩

end

end Implicit
