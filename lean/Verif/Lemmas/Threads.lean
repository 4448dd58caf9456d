import Verif.Model.Threads
/-!
# Reasoning about threads: what every thread may rely on and has to guarantee
-/

namespace Implicit

variable {S α β : Type}

/-- `K` keeps holding when other threads take steps. -/
def Stable (rely : S → S → Prop) (K : S → Prop) : Prop := ∀ s s', K s → rely s s' → K s'

/-- Started when `K` holds, with other threads making only `rely` steps, the thread makes only `guar` steps, waits only when
`blocked` holds, and if it finishes, `post` holds from then on. -/
def Safe (rely guar : S → S → Prop) (blocked : S → Prop) (post : α → S → Prop) : Prog S α → (S → Prop) → Prop
  | .done a, K => Stable rely K ∧ ∀ s, K s → post a s
  | .step ready act next, K => Stable rely K ∧ (∀ s, K s → ready s = false → blocked s) ∧
      ∀ s, K s → ready s = true → guar s (act s) ∧
        ∃ K' : S → Prop, K' (act s) ∧ Safe rely guar blocked post (next s) K'

variable {rely guar : S → S → Prop} {blocked : S → Prop}

theorem Safe.stable {post : α → S → Prop} : ∀ {p : Prog S α} {K : S → Prop},
    Safe rely guar blocked post p K → Stable rely K
  | .done _, _, h => h.1
  | .step _ _ _, _, h => h.1

theorem Safe.weaken {post post' : α → S → Prop} (hp : ∀ a s, post a s → post' a s) :
    ∀ {p : Prog S α} {K : S → Prop}, Safe rely guar blocked post p K → Safe rely guar blocked post' p K
  | .done _, _, h => ⟨h.1, fun s hs => hp _ _ (h.2 s hs)⟩
  | .step _ _ _, _, h => ⟨h.1, h.2.1, fun s hs hr => by
      obtain ⟨hg, K', hK', h'⟩ := h.2.2 s hs hr
      exact ⟨hg, K', hK', h'.weaken hp⟩⟩

theorem Safe.done {post : α → S → Prop} {a : α} {K : S → Prop} (hK : Stable rely K) (h : ∀ s, K s → post a s) :
    Safe rely guar blocked post (.done a) K := ⟨hK, h⟩

theorem Safe.bind {post : α → S → Prop} {post' : β → S → Prop} {k : α → Prog S β}
    (hk : ∀ a, Safe rely guar blocked post' (k a) (post a)) : ∀ {p : Prog S α} {K : S → Prop},
    Safe rely guar blocked post p K → Safe rely guar blocked post' (p.bind k) K
  | .done a, K, h => by
    show Safe rely guar blocked post' (k a) K
    have hka := hk a
    revert hka
    cases hc : k a with
    | done b => intro hka; exact ⟨h.1, fun s hs => hka.2 s (h.2 s hs)⟩
    | step ready act next =>
      intro hka
      exact ⟨h.1, fun s hs => hka.2.1 s (h.2 s hs), fun s hs => hka.2.2 s (h.2 s hs)⟩
  | .step ready act next, K, h => by
    refine ⟨h.1, h.2.1, fun s hs hr => ?_⟩
    obtain ⟨hg, K', hK', h'⟩ := h.2.2 s hs hr
    exact ⟨hg, K', hK', h'.bind hk⟩

theorem Safe.andThen {post : α → S → Prop} {post' : Except Err β → S → Prop} {k : α → Prog S (Except Err β)}
    {p : Prog S (Except Err α)} {K : S → Prop} {errs : Err → S → Prop}
    (hp : Safe rely guar blocked (fun r s => match r with | .error e => errs e s | .ok a => post a s) p K)
    (herr : ∀ e, Stable rely (errs e)) (he : ∀ e s, errs e s → post' (.error e) s)
    (hk : ∀ a, Safe rely guar blocked post' (k a) (post a)) :
    Safe rely guar blocked post' (p.andThen k) K := by
  refine Safe.bind (post := fun r s => match r with | .error e => errs e s | .ok a => post a s) ?_ hp
  intro r
  cases r with
  | error e => exact Safe.done (herr e) (he e)
  | ok a => exact hk a

theorem Safe.atomic {post : α → S → Prop} {g : S → S × α} {K : S → Prop} (hK : Stable rely K)
    (hpost : ∀ a, Stable rely (post a))
    (h : ∀ s, K s → guar s (g s).1 ∧ post (g s).2 (g s).1) : Safe rely guar blocked post (.atomic g) K :=
  ⟨hK, fun s _ h => by simp at h, fun s hs _ => ⟨(h s hs).1, post (g s).2, (h s hs).2, hpost _, fun _ h => h⟩⟩

theorem Safe.read {post : α → S → Prop} {g : S → α} {K : S → Prop} (hK : Stable rely K)
    (hpost : ∀ a, Stable rely (post a)) (hrefl : ∀ s, K s → guar s s)
    (h : ∀ s, K s → post (g s) s) : Safe rely guar blocked post (.read g) K :=
  ⟨hK, fun s _ h => by simp at h, fun s hs _ => ⟨hrefl s hs, post (g s), h s hs, hpost _, fun _ h => h⟩⟩

theorem Safe.write {post : Unit → S → Prop} {u : S → S} {K : S → Prop} (hK : Stable rely K)
    (hpost : Stable rely (post ())) (h : ∀ s, K s → guar s (u s) ∧ post () (u s)) :
    Safe rely guar blocked post (.write u) K :=
  ⟨hK, fun s _ h => by simp at h, fun s hs _ => ⟨(h s hs).1, post (), (h s hs).2, hpost, fun _ h => h⟩⟩

theorem Safe.await {post : Unit → S → Prop} {ready : S → Bool} {u : S → S} {K : S → Prop} (hK : Stable rely K)
    (hpost : Stable rely (post ())) (hb : ∀ s, K s → ready s = false → blocked s)
    (h : ∀ s, K s → ready s = true → guar s (u s) ∧ post () (u s)) :
    Safe rely guar blocked post (.await ready u) K :=
  ⟨hK, hb, fun s hs hr => ⟨(h s hs hr).1, post (), (h s hs hr).2, hpost, fun _ h => h⟩⟩

/-- Several calls in a row: `post` of each holds at the end, if it keeps holding. -/
theorem Safe.sequence {K : S → Prop} (hK : Stable rely K) : ∀ (ps : List (Prog S α × (α → Prop))),
    (∀ p ∈ ps, Safe rely guar blocked (fun a s => p.2 a ∧ K s) p.1 K) →
    Safe rely guar blocked (fun as s => List.Forall₂ (fun p a => p.2 a) ps as ∧ K s)
      (Prog.sequence (ps.map Prod.fst)) K
  | [], _ => Safe.done hK fun s hs => ⟨.nil, hs⟩
  | p :: ps, h => by
    have hst : ∀ P : Prop, Stable rely fun s => P ∧ K s := fun P s s' hs hr => ⟨hs.1, hK s s' hs.2 hr⟩
    refine Safe.bind (post := fun a s => p.2 a ∧ K s) (fun a => ?_) (h p (by simp))
    by_cases ha : p.2 a
    · refine Safe.bind (post := fun as s => List.Forall₂ (fun p a => p.2 a) ps as ∧ K s) (fun as => ?_) ?_
      · refine Safe.done (hst _) fun s hs => ⟨.cons ha hs.1, hs.2⟩
      · have := Safe.sequence hK ps fun q hq => h q (by simp [hq])
        have e : (fun s => p.2 a ∧ K s) = K := by funext s; simp [ha]
        rw [e]
        exact this
    · have e : (fun s => p.2 a ∧ K s) = fun _ => False := by funext s; simp [ha]
      rw [e]
      cases hp : (Prog.sequence (ps.map Prod.fst)).bind fun as => Prog.done (a :: as) with
      | done b => exact ⟨fun s s' hs => hs.elim, fun s hs => hs.elim⟩
      | step r u n => exact ⟨fun s s' hs => hs.elim, fun s hs => hs.elim, fun s hs => hs.elim⟩

theorem Safe.of_false {post : α → S → Prop} {K : S → Prop} (h : ∀ s, ¬ K s) : ∀ p : Prog S α, Safe rely guar blocked post p K
  | .done _ => ⟨fun s _ hs => absurd hs (h s), fun s hs => absurd hs (h s)⟩
  | .step _ _ _ => ⟨fun s _ hs => absurd hs (h s), fun s hs => absurd hs (h s), fun s hs => absurd hs (h s)⟩

theorem Safe.pre {post : α → S → Prop} {K K' : S → Prop} (hst : Stable rely K') (hi : ∀ s, K' s → K s) :
    ∀ {p : Prog S α}, Safe rely guar blocked post p K → Safe rely guar blocked post p K'
  | .done _, h => ⟨hst, fun s hs => h.2 s (hi s hs)⟩
  | .step _ _ _, h => ⟨hst, fun s hs => h.2.1 s (hi s hs), fun s hs => h.2.2 s (hi s hs)⟩

theorem Safe.guar_mono {post : α → S → Prop} {guar' : S → S → Prop} (h : ∀ s s', guar s s' → guar' s s') :
    ∀ {p : Prog S α} {K : S → Prop}, Safe rely guar blocked post p K → Safe rely guar' blocked post p K
  | .done _, _, hs => hs
  | .step _ _ _, _, hs => ⟨hs.1, hs.2.1, fun s hk hr => by
      obtain ⟨hg, K', hK', h'⟩ := hs.2.2 s hk hr
      exact ⟨h _ _ hg, K', hK', h'.guar_mono h⟩⟩

/-- What is kept by all threads can be added. -/
theorem Safe.frame {post : α → S → Prop} {F : S → Prop} (hr : Stable rely F) (hg : Stable guar F) :
    ∀ {p : Prog S α} {K : S → Prop}, Safe rely guar blocked post p K →
      Safe rely guar blocked (fun a s => post a s ∧ F s) p (fun s => K s ∧ F s)
  | .done _, _, h => ⟨fun s s' hs hs' => ⟨h.1 s s' hs.1 hs', hr s s' hs.2 hs'⟩, fun s hs => ⟨h.2 s hs.1, hs.2⟩⟩
  | .step _ _ _, _, h => ⟨fun s s' hs hs' => ⟨h.1 s s' hs.1 hs', hr s s' hs.2 hs'⟩, fun s hs => h.2.1 s hs.1, fun s hs hrd => by
      obtain ⟨hgu, K', hK', h'⟩ := h.2.2 s hs.1 hrd
      exact ⟨hgu, fun t => K' t ∧ F t, ⟨hK', hg _ _ hs.2 hgu⟩, h'.frame hr hg⟩⟩

/-- What a running process keeps: every thread is safe for what it knows. -/
def AllSafe {n : Nat} (rely guar : Fin n → S → S → Prop) (blocked : Fin n → S → Prop) (post : Fin n → α → S → Prop)
    (c : Proc S α) : Prop :=
  c.threads.length = n ∧ ∀ (i : Fin n) (p : Prog S α), c.threads[i.val]? = some p →
    ∃ K : S → Prop, K c.state ∧ Safe (rely i) (guar i) (blocked i) (post i) p K

theorem AllSafe.step {n : Nat} {rely guar : Fin n → S → S → Prop} {blocked : Fin n → S → Prop} {post : Fin n → α → S → Prop}
    (hrg : ∀ i j s s', i ≠ j → guar j s s' → rely i s s') {c : Proc S α} (h : AllSafe rely guar blocked post c) (j : Nat) :
    AllSafe rely guar blocked post (c.step j) ∧
      (c.step j = c ∨ ∃ k : Fin n, guar k c.state (c.step j).state) := by
  obtain ⟨hn, h⟩ := h
  unfold Proc.step
  cases hj : c.threads[j]? with
  | none => exact ⟨⟨hn, h⟩, .inl rfl⟩
  | some p =>
    cases p with
    | done a => exact ⟨⟨hn, h⟩, .inl rfl⟩
    | step ready act next =>
      have hjn : j < n := hn ▸ (List.getElem?_eq_some_iff.mp hj).1
      simp only
      split_ifs with hr
      · obtain ⟨K, hK, hs⟩ := h ⟨j, hjn⟩ _ hj
        obtain ⟨hg, K', hK', hs'⟩ := hs.2.2 _ hK hr
        refine ⟨⟨by simpa using hn, fun i p hp => ?_⟩, .inr ⟨⟨j, hjn⟩, hg⟩⟩
        by_cases hij : i.val = j
        · subst hij
          rw [List.getElem?_set_self (by omega)] at hp
          cases hp
          exact ⟨K', hK', hs'⟩
        · rw [List.getElem?_set_ne (by omega)] at hp
          obtain ⟨Ki, hKi, hsi⟩ := h i p hp
          refine ⟨Ki, hsi.stable _ _ hKi (hrg i ⟨j, hjn⟩ _ _ ?_ hg), hsi⟩
          intro he
          exact hij (by rw [he])
      · exact ⟨⟨hn, h⟩, .inl rfl⟩

theorem AllSafe.run {n : Nat} {rely guar : Fin n → S → S → Prop} {blocked : Fin n → S → Prop} {post : Fin n → α → S → Prop}
    (hrg : ∀ i j s s', i ≠ j → guar j s s' → rely i s s') :
    ∀ (schedule : List Nat) {c : Proc S α}, AllSafe rely guar blocked post c →
      AllSafe rely guar blocked post (c.run schedule)
  | [], _, h => h
  | j :: js, _, h => AllSafe.run hrg js (h.step hrg j).1

/-- The results of the threads after any schedule. -/
theorem AllSafe.result {n : Nat} {rely guar : Fin n → S → S → Prop} {blocked : Fin n → S → Prop}
    {post : Fin n → α → S → Prop} {c : Proc S α} (h : AllSafe rely guar blocked post c) (i : Fin n) (a : α)
    (ha : c.result i = some a) : post i a c.state := by
  unfold Proc.result at ha
  cases hp : c.threads[i.val]? with
  | none => rw [hp] at ha; simp at ha
  | some p =>
    rw [hp] at ha
    obtain ⟨K, hK, hs⟩ := h.2 i p hp
    cases p with
    | done b =>
      have : b = a := by simpa [Prog.value?] using ha
      rw [← this]
      exact hs.2 _ hK
    | step r u nx => simp [Prog.value?] at ha

/-- Something that holds at the start and after every guaranteed step holds after any schedule. -/
theorem AllSafe.invariant {n : Nat} {rely guar : Fin n → S → S → Prop} {blocked : Fin n → S → Prop}
    {post : Fin n → α → S → Prop} (hrg : ∀ i j s s', i ≠ j → guar j s s' → rely i s s') {I : S → Prop}
    (hI : ∀ i s s', I s → guar i s s' → I s') :
    ∀ (schedule : List Nat) {c : Proc S α}, AllSafe rely guar blocked post c → I c.state → I (c.run schedule).state
  | [], _, _, h => h
  | j :: js, c, h, hc => by
    refine AllSafe.invariant hrg hI js (h.step hrg j).1 ?_
    rcases (h.step hrg j).2 with e | ⟨k, hk⟩
    · rw [e]; exact hc
    · exact hI k _ _ hc hk

/-! ## Termination -/

/-- `p` is what is left of `q` after a step. -/
def Child (p q : Prog S α) : Prop := ∃ ready act next s, q = .step ready act next ∧ p = next s

theorem child_wf : ∀ p : Prog S α, Acc Child p
  | .done _ => ⟨_, fun _ ⟨_, _, _, _, h, _⟩ => by cases h⟩
  | .step ready act next => ⟨_, fun q ⟨r, a, nx, s, h, e⟩ => by
      cases h
      rw [e]
      exact child_wf (next s)⟩

/-- One of the threads takes a step. -/
inductive OneChild : List (Prog S α) → List (Prog S α) → Prop
  | head {p q : Prog S α} {ps : List (Prog S α)} (h : Child p q) : OneChild (p :: ps) (q :: ps)
  | tail {p : Prog S α} {ps qs : List (Prog S α)} (h : OneChild ps qs) : OneChild (p :: ps) (p :: qs)

theorem oneChild_acc : ∀ l : List (Prog S α), Acc OneChild l
  | [] => ⟨_, fun _ h => by cases h⟩
  | p :: ps => by
    have hp := child_wf p
    have hps := oneChild_acc ps
    induction hp generalizing ps with
    | intro p _ ihp =>
      induction hps with
      | intro ps hps' ihps =>
        refine ⟨_, fun l hl => ?_⟩
        cases hl with
        | head h => exact ihp _ h ps ⟨_, hps'⟩
        | tail h => exact ihps _ h

theorem oneChild_set {p q : Prog S α} : ∀ {l : List (Prog S α)} {i : Nat}, l[i]? = some q → Child p q →
    OneChild (l.set i p) l
  | [], _, h, _ => by simp at h
  | x :: xs, 0, h, hc => by
    simp at h
    subst h
    exact .head hc
  | x :: xs, i + 1, h, hc => .tail (oneChild_set (l := xs) (i := i) (by simpa using h) hc)

/-- The step of a thread that can run, and of one that cannot. -/
theorem Proc.step_cases (c : Proc S α) (i : Nat) :
    (c.step i = c ∧ ∀ p, c.threads[i]? = some p → p.canRun c.state = false) ∨
      OneChild (c.step i).threads c.threads := by
  unfold Proc.step
  cases h : c.threads[i]? with
  | none => exact .inl ⟨rfl, fun p hp => by cases hp⟩
  | some p =>
    cases p with
    | done a => exact .inl ⟨rfl, fun p hp => by cases hp; rfl⟩
    | step ready act next =>
      simp only
      split_ifs with hr
      · exact .inr (oneChild_set h ⟨_, _, _, _, rfl, rfl⟩)
      · refine .inl ⟨rfl, fun p hp => ?_⟩
        cases hp
        simpa [Prog.canRun] using hr

/-- If some thread can always run until all are finished, then every fair schedule finishes all of them. -/
theorem Proc.fair_finishes (Inv : Proc S α → Prop) (hstep : ∀ c i, Inv c → Inv (c.step i))
    (hrun : ∀ c, Inv c → c.finished = false → ∃ (i : Nat) (p : Prog S α), c.threads[i]? = some p ∧ p.canRun c.state = true)
    (c : Proc S α) (hc : Inv c) (n : Nat) (hn : c.threads.length = n) (schedule : Nat → Nat)
    (hfair : ∀ i < n, ∀ m, ∃ k, m ≤ k ∧ schedule k = i) :
    ∃ m, (c.run ((List.range m).map schedule)).finished = true := by
  suffices H : ∀ l : List (Prog S α), Acc OneChild l → ∀ m0, ∀ c : Proc S α, c.threads = l → Inv c → l.length = n →
      ∃ m, (c.run ((List.range m).map fun k => schedule (m0 + k))).finished = true by
    simpa using H c.threads (oneChild_acc _) 0 c rfl hc hn
  intro l hl
  induction hl with
  | intro l _ ih =>
    intro m0 c hcl hci hlen
    by_cases hfin : c.finished = true
    · exact ⟨0, hfin⟩
    · obtain ⟨i, p, hp, hcan⟩ := hrun c hci (by simpa using hfin)
      have hin : i < n := by
        have := (List.getElem?_eq_some_iff.mp hp).1
        rw [hcl] at this
        omega
      -- the next time something happens
      have hsome : ∀ d m, schedule (m + d) = i → ∃ e, e ≤ d ∧
          c.run ((List.range e).map fun k => schedule (m + k)) = c ∧ OneChild (c.step (schedule (m + e))).threads c.threads := by
        intro d
        induction d with
        | zero =>
          intro m hm
          refine ⟨0, Nat.le_refl _, rfl, ?_⟩
          rcases c.step_cases (schedule (m + 0)) with h | h
          · rw [hm] at h
            rw [h.2 p hp] at hcan
            cases hcan
          · exact h
        | succ d ihd =>
          intro m hm
          rcases c.step_cases (schedule m) with h | h
          · obtain ⟨e, he, hrun', hch⟩ := ihd (m + 1) (by rw [← hm]; congr 1; omega)
            refine ⟨e + 1, by omega, ?_, ?_⟩
            · rw [List.range_succ_eq_map, List.map_cons, List.map_map]
              show (c.step (schedule (m + 0))).run _ = c
              rw [Nat.add_zero, h.1]
              convert hrun' using 4
              rename_i k
              show schedule (m + (k + 1)) = _
              congr 1
              omega
            · have e2 : m + (e + 1) = m + 1 + e := by omega
              rw [e2]
              exact hch
          · exact ⟨0, by omega, rfl, h⟩
      obtain ⟨k, hk, hki⟩ := hfair i hin m0
      obtain ⟨e, _, hrun', hch⟩ := hsome (k - m0) m0 (by rw [← hki]; congr 1; omega)
      have hlen' : (c.step (schedule (m0 + e))).threads.length = n := by
        rw [← hlen, ← hcl]
        unfold Proc.step
        split
        · split_ifs <;> simp
        · rfl
      obtain ⟨m, hm⟩ := ih _ (hcl ▸ hch) (m0 + e + 1) _ rfl (hstep _ _ hci) hlen'
      refine ⟨e + 1 + m, ?_⟩
      rw [List.range_add, List.map_append]
      unfold Proc.run
      rw [List.foldl_append, List.range_succ, List.map_append, List.foldl_append]
      have hrun2 : List.foldl Proc.step c ((List.range e).map fun k => schedule (m0 + k)) = c := hrun'
      rw [hrun2, List.map_map]
      have hmap : (List.range m).map ((fun k => schedule (m0 + k)) ∘ fun x => e + 1 + x) =
          (List.range m).map fun k => schedule (m0 + e + 1 + k) := by
        apply List.map_congr_left
        intro k _
        show schedule (m0 + (e + 1 + k)) = _
        congr 1
        omega
      rw [hmap]
      exact hm

end Implicit
