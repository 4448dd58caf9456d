import Verif.Model.Locked
import Verif.Lemmas.Threads
/-!
# Calls under a lock happen one after the other
-/

namespace Implicit

namespace Spec

variable {T C α : Type}

/-- A history of calls - thread, call, result - is what a program that makes them one after the other sees, and takes the model from
`t` to `t'`. -/
def Serial (ret : T → C → α) (next : T → C → T) : T → List (Nat × C × α) → T → Prop
  | t, [], t' => t' = t
  | t, (_, c, a) :: log, t' => a = ret t c ∧ Serial ret next (next t c) log t'

/-- What thread `i` did in a history. -/
def callsOf (i : Nat) (log : List (Nat × C × α)) : List C := (log.filter fun x => x.1 == i).map fun x => x.2.1

/-- What thread `i` got in a history. -/
def resultsOf (i : Nat) (log : List (Nat × C × α)) : List α := (log.filter fun x => x.1 == i).map fun x => x.2.2

end Spec

variable {S T C α β γ : Type}

theorem Prog.bind_assoc : ∀ (p : Prog S α) (k : α → Prog S β) (l : β → Prog S γ), (p.bind k).bind l = p.bind fun a => (k a).bind l
  | .done _, _, _ => rfl
  | .step ready act next, k, l => by
    simp only [Prog.bind]
    congr 1
    funext s
    exact bind_assoc (next s) k l

theorem Prog.bind_done : ∀ (p : Prog S α), p.bind Prog.done = p
  | .done _ => rfl
  | .step ready act next => by
    simp only [Prog.bind]
    congr 1
    funext s
    exact bind_done (next s)

theorem serial_snoc {ret : T → C → α} {next : T → C → T} : ∀ {log : List (Nat × C × α)} {t t' : T} (i : Nat) (c : C),
    Spec.Serial ret next t log t' → Spec.Serial ret next t (log ++ [(i, c, ret t' c)]) (next t' c)
  | [], t, t', i, c, h => by
    cases h
    exact ⟨rfl, rfl⟩
  | (j, c', a) :: log, t, t', i, c, h => ⟨h.1, serial_snoc i c h.2⟩

variable (prog : C → Prog S α)

/-- What is left of a thread between two calls. -/
def restOf (i : Nat) (rest : List C) (rs : List α) : Prog (Locked S) (List α) :=
  (Prog.sequence (rest.map fun c => (prog c).withLock i)).bind fun as => .done (rs ++ as)

/-- What is left of a thread in a call. -/
def insideOf (i : Nat) (q : Prog S α) (rest : List C) (rs : List α) : Prog (Locked S) (List α) :=
  q.beside.bind fun a => .step (fun _ => true) (fun s => { s with lock := none }) fun _ => restOf prog i rest (rs ++ [a])

theorem restOf_cons (i : Nat) (c : C) (rest : List C) (rs : List α) :
    restOf prog i (c :: rest) rs =
      .step (fun s => s.lock.isNone) (fun s => { s with lock := some i }) fun _ => insideOf prog i (prog c) rest rs := by
  unfold restOf insideOf
  simp only [List.map_cons, Prog.sequence, Prog.withLock, Prog.await, Prog.write, Prog.bind_assoc, Prog.bind]
  congr 1
  funext s
  congr 1
  funext a
  congr 1
  funext s'
  unfold restOf
  congr 1
  funext as
  simp

theorem restOf_nil (i : Nat) (rs : List α) : restOf prog i ([] : List C) rs = .done rs := by
  unfold restOf
  simp [Prog.sequence, Prog.bind]

/-- What holds at every moment. -/
def LockInv (Is : S → T → Prop) (ret : T → C → α) (next : T → C → T) (t0 : T) (threads : List (List C))
    (c : Proc (Locked S) (List α)) : Prop :=
  ∃ (log : List (Nat × C × α)) (t : T), Spec.Serial ret next t0 log t ∧ c.threads.length = threads.length ∧
    (∀ (i : Nat) (calls : List C) (p : Prog (Locked S) (List α)), threads[i]? = some calls → c.threads[i]? = some p →
      (c.state.lock ≠ some i ∧ ∃ rest, calls = Spec.callsOf i log ++ rest ∧ p = restOf prog i rest (Spec.resultsOf i log)) ∨
      (c.state.lock = some i ∧ ∃ call q rest s', calls = Spec.callsOf i log ++ call :: rest ∧
        p = insideOf prog i q rest (Spec.resultsOf i log) ∧ q.alone c.state.data = some (ret t call, s') ∧ Is s' (next t call))) ∧
    (c.state.lock = none → Is c.state.data t) ∧
    (∀ j, c.state.lock = some j → j < threads.length) ∧
    ∀ x ∈ log, x.1 < threads.length

theorem callsOf_snoc (i j : Nat) (log : List (Nat × C × α)) (c : C) (a : α) :
    Spec.callsOf i (log ++ [(j, c, a)]) = if j = i then Spec.callsOf i log ++ [c] else Spec.callsOf i log := by
  unfold Spec.callsOf
  rw [List.filter_append]
  by_cases h : j = i <;> simp [h]

theorem resultsOf_snoc (i j : Nat) (log : List (Nat × C × α)) (c : C) (a : α) :
    Spec.resultsOf i (log ++ [(j, c, a)]) = if j = i then Spec.resultsOf i log ++ [a] else Spec.resultsOf i log := by
  unfold Spec.resultsOf
  rw [List.filter_append]
  by_cases h : j = i <;> simp [h]

variable {prog}

theorem LockInv.step {Is : S → T → Prop} {ret : T → C → α} {next : T → C → T} {t0 : T} {threads : List (List C)}
    (hcall : ∀ c s t, Is s t → ∃ s', (prog c).alone s = some (ret t c, s') ∧ Is s' (next t c))
    {c : Proc (Locked S) (List α)} (h : LockInv prog Is ret next t0 threads c) (j : Nat) :
    LockInv prog Is ret next t0 threads (c.step j) := by
  unfold Proc.step
  split
  case h_2 => exact h
  rename_i ready act nx hj
  split_ifs with hr
  case neg => exact h
  obtain ⟨log, t, hser, hlen, hth, hfree, hown, hlog⟩ := h
  have hjl : j < c.threads.length := (List.getElem?_eq_some_iff.mp hj).1
  have hjt : threads[j]? = some (threads[j]'(hlen ▸ hjl)) := List.getElem?_eq_getElem _
  rcases hth j _ _ hjt hj with ⟨hl, rest, hcs, hp⟩ | ⟨hl, call, q, rest, s', hcs, hp, hq, hs'⟩
  · -- the thread takes the lock
    cases rest with
    | nil => rw [restOf_nil] at hp; cases hp
    | cons call rest =>
      rw [restOf_cons] at hp
      cases hp
      have hnone : c.state.lock = none := by simpa using hr
      obtain ⟨s', hs, his⟩ := hcall call _ _ (hfree hnone)
      refine ⟨log, t, hser, by simpa using hlen, fun i calls p hi hpi => ?_, fun h => (by cases h), fun k hk => ?_, hlog⟩
      · by_cases hij : i = j
        · subst hij
          rw [List.getElem?_set_self hjl] at hpi
          cases hpi
          rw [hjt] at hi
          cases hi
          exact .inr ⟨rfl, call, prog call, rest, s', hcs, rfl, hs, his⟩
        · rw [List.getElem?_set_ne (Ne.symm hij)] at hpi
          rcases hth i calls p hi hpi with ⟨_, h⟩ | ⟨hl', _⟩
          · exact .inl ⟨by simpa using Ne.symm hij, h⟩
          · rw [hnone] at hl'; cases hl'
      · have : j = k := by simpa using hk
        omega
  · -- the thread has the lock
    have hother : ∀ i, i ≠ j → c.state.lock ≠ some i := fun i hij he => hij (Option.some.inj (he.symm.trans hl))
    cases q with
    | done a =>
      have ha : (a, c.state.data) = (ret t call, s') := Option.some.inj hq
      cases ha
      cases hp
      refine ⟨log ++ [(j, call, ret t call)], next t call, serial_snoc j call hser, by simpa using hlen,
        fun i calls p hi hpi => ?_, fun _ => hs', fun k hk => (by cases hk), fun x hx => ?_⟩
      · by_cases hij : i = j
        · subst hij
          rw [List.getElem?_set_self hjl] at hpi
          cases hpi
          rw [hjt] at hi
          cases hi
          refine .inl ⟨by simp, rest, ?_, ?_⟩
          · rw [callsOf_snoc, if_pos rfl, hcs, List.append_assoc]; rfl
          · rw [resultsOf_snoc, if_pos rfl]
        · rw [List.getElem?_set_ne (Ne.symm hij)] at hpi
          rcases hth i calls p hi hpi with ⟨_, rest', h1, h2⟩ | ⟨hl', _⟩
          · refine .inl ⟨by simp, rest', ?_, ?_⟩
            · rw [callsOf_snoc, if_neg (Ne.symm hij)]; exact h1
            · rw [resultsOf_snoc, if_neg (Ne.symm hij)]; exact h2
          · exact absurd hl' (hother i hij)
      · rcases List.mem_append.mp hx with hx | hx
        · exact hlog x hx
        · rw [List.mem_singleton] at hx
          subst hx
          show j < _
          omega
    | step ready' act' next' =>
      cases hp
      have hr' : ready' c.state.data = true := hr
      have hq' : (next' c.state.data).alone (act' c.state.data) = some (ret t call, s') := by
        simp only [Prog.alone, hr', if_true] at hq
        exact hq
      refine ⟨log, t, hser, by simpa using hlen, fun i calls p hi hpi => ?_, fun h => ?_, hown, hlog⟩
      · by_cases hij : i = j
        · subst hij
          rw [List.getElem?_set_self hjl] at hpi
          cases hpi
          rw [hjt] at hi
          cases hi
          exact .inr ⟨hl, call, _, rest, s', hcs, rfl, hq', hs'⟩
        · rw [List.getElem?_set_ne (Ne.symm hij)] at hpi
          rcases hth i calls p hi hpi with ⟨h1, h⟩ | ⟨hl', _⟩
          · exact .inl ⟨h1, h⟩
          · exact absurd hl' (hother i hij)
      · have : c.state.lock = none := h
        rw [hl] at this
        cases this

theorem LockInv.start {Is : S → T → Prop} {ret : T → C → α} {next : T → C → T} {t0 : T} (threads : List (List C)) {s : S}
    (hs : Is s t0) : LockInv prog Is ret next t0 threads (lockedProcess prog s threads) := by
  refine ⟨[], t0, rfl, by simp [lockedProcess], fun i calls p hi hp => .inl ⟨by simp [lockedProcess], calls, rfl, ?_⟩,
    fun _ => hs, fun j hj => (by simp [lockedProcess] at hj), fun x hx => (by simp at hx)⟩
  simp only [lockedProcess, List.getElem?_map, List.getElem?_zipIdx, hi, Option.map_some, Option.some.injEq] at hp
  rw [← hp]
  unfold restOf
  simp [Spec.resultsOf, Prog.bind_done]

theorem LockInv.run {Is : S → T → Prop} {ret : T → C → α} {next : T → C → T} {t0 : T} {threads : List (List C)}
    (hcall : ∀ c s t, Is s t → ∃ s', (prog c).alone s = some (ret t c, s') ∧ Is s' (next t c)) :
    ∀ (schedule : List Nat) {c : Proc (Locked S) (List α)}, LockInv prog Is ret next t0 threads c →
      LockInv prog Is ret next t0 threads (c.run schedule)
  | [], _, h => h
  | j :: js, _, h => LockInv.run hcall js (h.step hcall j)

/-- Every finished process of calls under a lock has a history. -/
theorem LockInv.finished {Is : S → T → Prop} {ret : T → C → α} {next : T → C → T} {t0 : T} {threads : List (List C)}
    {c : Proc (Locked S) (List α)} (h : LockInv prog Is ret next t0 threads c) (hf : c.finished = true) :
    ∃ (log : List (Nat × C × α)) (t : T), Spec.Serial ret next t0 log t ∧ Is c.state.data t ∧
      (∀ x ∈ log, x.1 < threads.length) ∧
      ∀ (i : Nat) (calls : List C), threads[i]? = some calls →
        Spec.callsOf i log = calls ∧ c.result i = some (Spec.resultsOf i log) := by
  obtain ⟨log, t, hser, hlen, hth, hfree, hown, hlog⟩ := h
  have key : ∀ (i : Nat) (calls : List C), threads[i]? = some calls → c.state.lock ≠ some i ∧
      Spec.callsOf i log = calls ∧ c.result i = some (Spec.resultsOf i log) := by
    intro i calls hi
    have hil := (List.getElem?_eq_some_iff.mp hi).1
    have hp := List.getElem?_eq_getElem (l := c.threads) (i := i) (by omega)
    have hv := List.all_eq_true.mp hf _ (List.getElem_mem (l := c.threads) (n := i) (by omega))
    rcases hth i calls _ hi hp with ⟨hl, rest, hcs, hpe⟩ | ⟨hl, call, q, rest, s', hcs, hpe, hq, -⟩
    · cases rest with
      | nil =>
        rw [restOf_nil] at hpe
        refine ⟨hl, by simpa using hcs.symm, ?_⟩
        unfold Proc.result
        rw [hp, hpe]
        rfl
      | cons call rest =>
        rw [restOf_cons] at hpe
        rw [hpe] at hv
        cases hv
    · rw [hpe] at hv
      cases q <;> cases hv
  refine ⟨log, t, hser, hfree ?_, hlog, fun i calls hi => (key i calls hi).2⟩
  cases hl : c.state.lock with
  | none => rfl
  | some j => exact absurd hl (key j _ (List.getElem?_eq_getElem (hown j hl))).1

/-- Before the end some thread can run. -/
theorem LockInv.canRun {Is : S → T → Prop} {ret : T → C → α} {next : T → C → T} {t0 : T} {threads : List (List C)}
    {c : Proc (Locked S) (List α)} (h : LockInv prog Is ret next t0 threads c) (hf : c.finished = false) :
    ∃ (i : Nat) (p : Prog (Locked S) (List α)), c.threads[i]? = some p ∧ p.canRun c.state = true := by
  obtain ⟨log, t, hser, hlen, hth, hfree, hown, hlog⟩ := h
  cases hl : c.state.lock with
  | some j =>
    have hj := hown j hl
    have hp := List.getElem?_eq_getElem (l := c.threads) (i := j) (by omega)
    rcases hth j _ _ (List.getElem?_eq_getElem hj) hp with ⟨hl', _⟩ | ⟨_, call, q, rest, s', hcs, hpe, hq, -⟩
    · exact absurd hl hl'
    · refine ⟨j, _, hp, ?_⟩
      rw [hpe]
      cases q with
      | done a => rfl
      | step ready act next =>
        show ready c.state.data = true
        by_contra hn
        simp only [Prog.alone, if_neg hn] at hq
        cases hq
  | none =>
    obtain ⟨p, hp, hv⟩ : ∃ p ∈ c.threads, p.value?.isSome = false := by simpa [Proc.finished] using hf
    obtain ⟨i, hi⟩ := List.getElem?_of_mem hp
    have hil : i < threads.length := hlen ▸ (List.getElem?_eq_some_iff.mp hi).1
    rcases hth i _ _ (List.getElem?_eq_getElem hil) hi with ⟨_, rest, hcs, hpe⟩ | ⟨hl', _⟩
    · refine ⟨i, p, hi, ?_⟩
      cases rest with
      | nil =>
        rw [restOf_nil] at hpe
        rw [hpe] at hv
        cases hv
      | cons call rest =>
        rw [hpe, restOf_cons]
        show c.state.lock.isNone = true
        rw [hl]
        rfl
    · rw [hl] at hl'; cases hl'

end Implicit
