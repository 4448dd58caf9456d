import Mathlib.Analysis.SpecialFunctions.Sqrt
import Verif.Spec.FitLoop
import Verif.Model.FitLoop
import Verif.Model.BPR
import Verif.Model.LMF
import Verif.Lemmas.Factory
import Verif.Props.C13
/-!
# C66 — callbacks watch the training, and training can be stopped and resumed
-/

set_option linter.unusedSectionVars false

namespace Implicit

open Spec (repeated ValidRow)

variable {M I : Type}

/-- A callback that only looks. -/
def Spec.Passive (c : PyCallback M I) : Prop := ∀ i t info m, c.call i t info m = (.ok (), m)

/-! ## Which calls are made -/

theorem fitLoop_none {L : TrainLoop M I} {cbs : Nat → PyCallback M I} {clock : Nat → Rat} {n i : Nat} {cb : Option Nat} {m : M}
    (hcb : truthyCb cbs cb = true) : ∀ {e : CallEvent M I}, e ∈ (fitLoop L cbs clock n i cb m).calls → some e.who = cb := by
  induction n generalizing i m with
  | zero => intro e he; simp [fitLoop] at he
  | succ n ih =>
    intro e he
    unfold fitLoop at he
    rcases hb : L.body m with ⟨r, m'⟩
    rw [hb] at he
    cases r with
    | error x => simp at he
    | ok info =>
      simp only [hcb, if_true] at he
      cases cb with
      | none => simp [truthyCb] at hcb
      | some c =>
        have ht : (cbs c).truthy = true := hcb
        simp only [ht, if_true] at he
        rcases hc : (cbs c).call i (clock (2 * i + 1) - clock (2 * i)) info m' with ⟨r, m''⟩
        rw [hc] at he
        cases r with
        | error x =>
          simp only [List.mem_singleton] at he
          rw [he]
        | ok u =>
          simp only [List.mem_cons] at he
          rcases he with rfl | he
          · rfl
          · exact ih he

/-- **C66** (order).  Whatever the callbacks do: they are called for consecutive iterations, each at most once, in order, always the
same callback; and if the loop ends without an exception, the last call is that of the last iteration. -/
theorem C66_order (L : TrainLoop M I) (cbs : Nat → PyCallback M I) (clock : Nat → Rat) (n i : Nat) (cb : Option Nat) (m : M) :
    let run := fitLoop L cbs clock n i cb m
    ∃ j, i ≤ j ∧ run.calls.map (·.iteration) = List.range' j run.calls.length ∧ j + run.calls.length ≤ i + n ∧
      (truthyCb cbs cb = true → j = i) ∧
      (∀ a ∈ run.calls, ∀ b ∈ run.calls, a.who = b.who) ∧
      (run.outcome = .ok () → truthyCb cbs cb = true ∨ run.calls ≠ [] → j + run.calls.length = i + n) := by
  induction n generalizing i cb m with
  | zero => exact ⟨i, le_rfl, by simp [fitLoop], by simp [fitLoop], fun _ => rfl, by simp [fitLoop], by simp [fitLoop]⟩
  | succ n ih =>
    intro run
    have hrun : run = fitLoop L cbs clock (n + 1) i cb m := rfl
    clear_value run
    unfold fitLoop at hrun
    rcases hb : L.body m with ⟨r, m'⟩
    rw [hb] at hrun
    cases r with
    | error x =>
      rw [hrun]
      refine ⟨i, le_rfl, by simp, by simp, fun _ => rfl, by simp, ?_⟩
      intro h; exact absurd h (by simp)
    | ok info =>
      simp only at hrun
      obtain ⟨cb', hcb'⟩ : ∃ cb', cb' = (if truthyCb cbs cb = true then cb else L.fallback m') := ⟨_, rfl⟩
      rw [← hcb'] at hrun
      have hsame : truthyCb cbs cb = true → cb' = cb := fun h => by rw [hcb', if_pos h]
      have quiet : ∀ r' : FitRun M I, truthyCb cbs cb' = false → r' = fitLoop L cbs clock n (i + 1) cb' m' → run = r' →
          ∃ j, i ≤ j ∧ run.calls.map (·.iteration) = List.range' j run.calls.length ∧ j + run.calls.length ≤ i + (n + 1) ∧
            (truthyCb cbs cb = true → j = i) ∧ (∀ a ∈ run.calls, ∀ b ∈ run.calls, a.who = b.who) ∧
            (run.outcome = .ok () → truthyCb cbs cb = true ∨ run.calls ≠ [] → j + run.calls.length = i + (n + 1)) := by
        intro r' hf hr' he
        obtain ⟨j, h1, h2, h3, -, h5, h6⟩ := ih (i + 1) cb' m'
        have hcb : truthyCb cbs cb = false := by
          by_contra hc
          have hc' : truthyCb cbs cb = true := by simpa using hc
          rw [hsame hc'] at hf
          rw [hf] at hc'
          exact absurd hc' (by simp)
        rw [he, hr']
        refine ⟨j, by omega, h2, by omega, by rw [hcb]; simp, h5, ?_⟩
        intro ho hx
        rw [hcb] at hx
        have := h6 ho (Or.inr (by simpa using hx))
        omega
      cases cb' with
      | none => exact quiet _ rfl rfl hrun
      | some c =>
        by_cases ht : (cbs c).truthy = true
        · simp only [ht, if_true] at hrun
          rcases hc : (cbs c).call i (clock (2 * i + 1) - clock (2 * i)) info m' with ⟨r, m''⟩
          rw [hc] at hrun
          cases r with
          | error x =>
            rw [hrun]
            refine ⟨i, le_rfl, by simp, by simp, fun _ => rfl, by simp, ?_⟩
            intro h; exact absurd h (by simp)
          | ok u =>
            simp only at hrun
            obtain ⟨j, h1, h2, h3, h4, h5, h6⟩ := ih (i + 1) (some c) m''
            have hj := h4 ht
            subst hj
            have hwho := @fitLoop_none M I L cbs clock n (i + 1) (some c) m'' ht
            rw [hrun]
            refine ⟨i, le_rfl, ?_, ?_, fun _ => rfl, ?_, ?_⟩
            · simp only [List.map_cons, List.length_cons]
              rw [h2, List.range'_succ]
            · simp only [List.length_cons]; omega
            · intro a ha b hb
              simp only [List.mem_cons] at ha hb
              have key : ∀ e : CallEvent M I, (e = ⟨c, i, clock (2 * i + 1) - clock (2 * i), info, m'⟩ ∨
                  e ∈ (fitLoop L cbs clock n (i + 1) (some c) m'').calls) → e.who = c := by
                rintro e (rfl | he)
                · rfl
                · have := hwho he
                  injection this
              rw [key a ha, key b hb]
            · intro ho _
              have := h6 ho (Or.inl ht)
              simp only [List.length_cons]
              omega
        · have hf : (cbs c).truthy = false := by simpa using ht
          simp only [hf] at hrun
          exact quiet _ hf rfl hrun

/-- **C66** (which callback).  A callback passed to `fit` is the one called, not `fit_callback`. -/
theorem C66_argument_first (L : TrainLoop M I) (cbs : Nat → PyCallback M I) (clock : Nat → Rat) (n c : Nat) (m : M)
    (h : (cbs c).truthy = true) : ∀ e ∈ (fitLoop L cbs clock n 0 (some c) m).calls, e.who = c := by
  intro e he
  have := fitLoop_none (cb := some c) h he
  injection this

/-! ## Callbacks that only look -/

/-- **C66** (watching changes nothing).  With callbacks that only look, `fit` does what it does without them. -/
theorem C66_passive (L : TrainLoop M I) (cbs : Nat → PyCallback M I) (hp : ∀ c, Spec.Passive (cbs c)) (clock : Nat → Rat)
    (n i : Nat) (cb : Option Nat) (m : M) :
    ((fitLoop L cbs clock n i cb m).outcome, (fitLoop L cbs clock n i cb m).model) = repeated L.body n m := by
  induction n generalizing i cb m with
  | zero => rfl
  | succ n ih =>
    unfold fitLoop repeated
    rcases hb : L.body m with ⟨r, m'⟩
    cases r with
    | error x => rfl
    | ok info =>
      simp only
      rcases hcb : (if truthyCb cbs cb = true then cb else L.fallback m') with _ | c
      · exact ih _ _ _
      · simp only
        by_cases ht : (cbs c).truthy = true
        · simp only [ht, if_true, hp c _ _ _ _]
          exact ih _ _ _
        · have hf : (cbs c).truthy = false := by simpa using ht
          simp only [hf]
          exact ih _ _ _

/-- **C66** (what a callback sees).  In iteration `k` a callback that only looks finds the model a `fit` with `k + 1` iterations
would have left. -/
theorem C66_sees (L : TrainLoop M I) (cbs : Nat → PyCallback M I) (clock : Nat → Rat) (n i c : Nat) (m : M)
    (ht : (cbs c).truthy = true) (hp : Spec.Passive (cbs c)) (k : Nat) (hk : k < n) (m' : M)
    (hm : repeated L.body (k + 1) m = (.ok (), m')) :
    ∃ e, (fitLoop L cbs clock n i (some c) m).calls[k]? = some e ∧ e.iteration = i + k ∧ e.seen = m' ∧
      e.elapsed = clock (2 * (i + k) + 1) - clock (2 * (i + k)) ∧
      ∃ before, repeated L.body k m = (.ok (), before) ∧ L.body before = (.ok e.info, m') := by
  induction n generalizing i m k with
  | zero => omega
  | succ n ih =>
    unfold repeated at hm
    rcases hb : L.body m with ⟨r, m₁⟩
    rw [hb] at hm
    cases r with
    | error x => exact absurd (congrArg Prod.fst hm) (by simp)
    | ok info =>
      simp only at hm
      have hstep : (fitLoop L cbs clock (n + 1) i (some c) m).calls =
          ⟨c, i, clock (2 * i + 1) - clock (2 * i), info, m₁⟩ :: (fitLoop L cbs clock n (i + 1) (some c) m₁).calls := by
        conv_lhs => unfold fitLoop
        have hq : truthyCb cbs (some c) = true := ht
        rw [hb]
        simp only [hq, if_true, ht, hp _ _ _ _]
      rw [hstep]
      cases k with
      | zero =>
        have : m₁ = m' := congrArg Prod.snd hm
        subst this
        exact ⟨_, rfl, rfl, rfl, rfl, m, rfl, hb⟩
      | succ k =>
        obtain ⟨e, h1, h2, h3, h4, before, h5, h6⟩ := ih (i + 1) m₁ k (by omega) hm
        refine ⟨e, by simpa using h1, by omega, h3, ?_, before, ?_, h6⟩
        · rw [h4]
          congr 2 <;> ring_nf
        · unfold repeated
          rw [hb]
          exact h5

/-! ## Stopping and resuming -/

/-- **C66** (stopping).  A callback that looks on until iteration `k` and then raises: `fit` raises that exception, makes no further
call, and leaves the model of `k + 1` iterations. -/
theorem C66_stop (L : TrainLoop M I) (check : M → Except Err Unit) (cbs : Nat → PyCallback M I) (clock : Nat → Rat) (n c : Nat)
    (m : M) (ht : (cbs c).truthy = true) (k : Nat) (hk : k < n) (stop : Err)
    (hcall : ∀ i t info m, (cbs c).call i t info m = (if i = k then .error stop else .ok (), m)) (m' : M)
    (hm : repeated L.body (k + 1) m = (.ok (), m')) :
    let run := fitRun L check cbs clock n (some c) m
    run.outcome = .error stop ∧ run.model = m' ∧ run.calls.length = k + 1 := by
  have key : ∀ (n i k : Nat) (m : M), k < n →
      (∀ j t info m, j < i + k → (cbs c).call j t info m = (.ok (), m)) →
      (∀ t info m, (cbs c).call (i + k) t info m = (.error stop, m)) →
      repeated L.body (k + 1) m = (.ok (), m') →
      (fitLoop L cbs clock n i (some c) m).outcome = .error stop ∧ (fitLoop L cbs clock n i (some c) m).model = m' ∧
        (fitLoop L cbs clock n i (some c) m).calls.length = k + 1 := by
    intro n
    induction n with
    | zero => intro i k m hk; omega
    | succ n ih =>
      intro i k m hk h1 h2 hm
      unfold repeated at hm
      rcases hb : L.body m with ⟨r, m₁⟩
      rw [hb] at hm
      cases r with
      | error x => exact absurd (congrArg Prod.fst hm) (by simp)
      | ok info =>
        simp only at hm
        have hq : truthyCb cbs (some c) = true := ht
        unfold fitLoop
        rw [hb]
        simp only [hq, if_true, ht]
        cases k with
        | zero =>
          have : m₁ = m' := congrArg Prod.snd hm
          subst this
          have := h2 (clock (2 * i + 1) - clock (2 * i)) info m₁
          rw [Nat.add_zero] at this
          rw [this]
          exact ⟨rfl, rfl, rfl⟩
        | succ k =>
          rw [h1 i _ _ _ (by omega)]
          obtain ⟨a, b, d⟩ := ih (i + 1) k m₁ (by omega) (fun j t info m hj => h1 j t info m (by omega))
            (fun t info m => by have := h2 t info m; rwa [show i + (k + 1) = i + 1 + k by omega] at this) hm
          exact ⟨a, b, by simp [d]⟩
  obtain ⟨a, b, d⟩ := key n 0 k m hk (fun j t info m hj => by rw [hcall, if_neg (by omega)])
    (fun t info m => by rw [hcall, if_pos (by omega)]) hm
  intro run
  have hr : run = fitLoop L cbs clock n 0 (some c) m := by
    show fitRun L check cbs clock n (some c) m = _
    unfold fitRun
    simp only [a]
  rw [hr]
  exact ⟨a, b, d⟩

theorem repeated_add {step : M → Except Err I × M} {a b : Nat} {m m' : M} (h : repeated step a m = (.ok (), m')) :
    repeated step (a + b) m = repeated step b m' := by
  induction a generalizing m with
  | zero =>
    have : m = m' := congrArg Prod.snd h
    rw [this, Nat.zero_add]
  | succ a ih =>
    rw [show a + 1 + b = (a + b) + 1 by omega]
    unfold repeated at h
    rw [repeated]
    rcases hb : step m with ⟨r, m₁⟩
    rw [hb] at h
    cases r with
    | error x => exact absurd (congrArg Prod.fst h) (by simp)
    | ok info => exact ih h

/-- **C66** (resuming).  A training stopped by a callback in iteration `k` and then continued for the remaining iterations ends
where the uninterrupted training ends, whatever watches the second part. -/
theorem C66_interrupted (L : TrainLoop M I) (check : M → Except Err Unit) (cbs : Nat → PyCallback M I) (clock clock' : Nat → Rat)
    (n c : Nat) (m : M) (ht : (cbs c).truthy = true) (k : Nat) (hk : k < n) (stop : Err)
    (hcall : ∀ i t info m, (cbs c).call i t info m = (if i = k then .error stop else .ok (), m)) (m' : M)
    (hm : repeated L.body (k + 1) m = (.ok (), m')) (cbs' : Nat → PyCallback M I) (hp : ∀ c, Spec.Passive (cbs' c))
    (cb' : Option Nat) :
    let again := fitLoop L cbs' clock' (n - (k + 1)) 0 cb' (fitRun L check cbs clock n (some c) m).model
    (again.outcome, again.model) = repeated L.body n m := by
  obtain ⟨-, h2, -⟩ := C66_stop L check cbs clock n c m ht k hk stop hcall m' hm
  simp only
  rw [h2, C66_passive L cbs' hp, ← repeated_add hm]
  congr 1
  omega

/-- **C66** (changing the model).  What a callback does to the model in the first iteration is what the following iterations start
from. -/
theorem C66_changes (L : TrainLoop M I) (cbs : Nat → PyCallback M I) (clock : Nat → Rat) (n c : Nat) (m m' : M) (info : I)
    (ht : (cbs c).truthy = true) (change : M → M)
    (hcall : ∀ i t info m, (cbs c).call i t info m = (.ok (), if i = 0 then change m else m)) (hb : L.body m = (.ok info, m')) :
    let run := fitLoop L cbs clock (n + 1) 0 (some c) m
    (run.outcome, run.model) = repeated L.body n (change m') := by
  have hq : truthyCb cbs (some c) = true := ht
  have later : ∀ (n i : Nat) (m : M), 0 < i →
      ((fitLoop L cbs clock n i (some c) m).outcome, (fitLoop L cbs clock n i (some c) m).model) = repeated L.body n m := by
    intro n
    induction n with
    | zero => intro i m _; rfl
    | succ n ih =>
      intro i m hi
      unfold fitLoop repeated
      rcases hb : L.body m with ⟨r, m'⟩
      cases r with
      | error x => rfl
      | ok info =>
        simp only [hq, if_true, ht, hcall, if_neg (Nat.pos_iff_ne_zero.mp hi)]
        exact ih _ _ (by omega)
  intro run
  show ((fitLoop L cbs clock (n + 1) 0 (some c) m).outcome, (fitLoop L cbs clock (n + 1) 0 (some c) m).model) = _
  unfold fitLoop
  rw [hb]
  simp only [hq, if_true, ht, hcall]
  exact later _ _ _ (by omega)

/-! ## ALS -/

variable {R : Type} [LinearOrder R] [Field R] {f : Nat}

theorem repeated_als (solver : SweepFn f R) (torn : Factors f R → Factors f R) (cols : Nat) (Cui : SpRows R) :
    ∀ (n : Nat) (m : AlsTrainee f R) (trace : List (Factors f R)),
      alsTrace solver Cui (transposeRows cols Cui) m.regularization n m.factors = .ok trace →
      (m.calculateTrainingLoss = true → ∀ x ∈ trace, ∃ l, calculateLoss Cui cols x.user x.item m.regularization = .ok l) →
      repeated (alsLoop solver torn cols Cui).body n m =
        (.ok (), { m with factors := trace.getLast?.getD m.factors }) := by
  intro n
  induction n with
  | zero =>
    intro m trace h _
    unfold alsTrace at h
    injection h with h
    subst h
    rfl
  | succ n ih =>
    intro m trace h hl
    unfold alsTrace at h
    cases e : alsIteration solver Cui (transposeRows cols Cui) m.regularization m.factors with
    | error x => rw [e] at h; exact absurd h (by simp [bind, Except.bind])
    | ok x =>
      rw [e] at h
      simp only [bind, Except.bind] at h
      cases e' : alsTrace solver Cui (transposeRows cols Cui) m.regularization n x with
      | error y => rw [e'] at h; exact absurd h (by simp)
      | ok rest =>
        rw [e'] at h
        simp only [pure, Except.pure] at h
        injection h with h
        subst h
        have hb : ∃ info, (alsLoop solver torn cols Cui).body m = (.ok info, { m with factors := x }) := by
          unfold alsLoop
          simp only [e]
          by_cases hc : m.calculateTrainingLoss = true
          · obtain ⟨l, hl⟩ := hl hc x (List.mem_cons_self ..)
            rw [if_pos hc, hl]
            exact ⟨_, rfl⟩
          · rw [if_neg hc]
            exact ⟨_, rfl⟩
        obtain ⟨info, hb⟩ := hb
        unfold repeated
        rw [hb]
        simp only
        rw [ih { m with factors := x } rest e' fun hc y hy => hl hc y (List.mem_cons_of_mem _ hy)]
        congr 2
        cases rest with
        | nil => rfl
        | cons a l =>
          rw [List.getLast?_cons_cons, List.getLast?_cons]
          rfl

theorem alsTrace_append (solver : SweepFn f R) (Cui Ciu : SpRows R) (reg : R) (b : Nat) : ∀ (a : Nat) (m : Factors f R)
    (t : List (Factors f R)), alsTrace solver Cui Ciu reg a m = .ok t →
    alsTrace solver Cui Ciu reg (a + b) m =
      (alsTrace solver Cui Ciu reg b (t.getLast?.getD m)).map fun t' => t ++ t' := by
  intro a
  induction a with
  | zero =>
    intro m t h
    unfold alsTrace at h
    injection h with h
    subst h
    rw [Nat.zero_add]
    cases e : alsTrace solver Cui Ciu reg b m <;> simp [e, Except.map]
  | succ a ih =>
    intro m t h
    rw [show a + 1 + b = (a + b) + 1 by omega]
    unfold alsTrace at h
    rw [alsTrace]
    cases e : alsIteration solver Cui Ciu reg m with
    | error x => rw [e] at h; exact absurd h (by simp [bind, Except.bind])
    | ok x =>
      rw [e] at h
      simp only [bind, Except.bind] at h ⊢
      cases e' : alsTrace solver Cui Ciu reg a x with
      | error y => rw [e'] at h; exact absurd h (by simp)
      | ok rest =>
        rw [e'] at h
        simp only [pure, Except.pure] at h
        injection h with h
        subst h
        rw [ih x rest e']
        have : (x :: rest).getLast?.getD m = rest.getLast?.getD x := by
          cases rest with
          | nil => rfl
          | cons a l => rw [List.getLast?_cons_cons, List.getLast?_cons]; rfl
        rw [this]
        cases alsTrace solver Cui Ciu reg b (rest.getLast?.getD x) <;> rfl

theorem alsTrace_prefix (solver : SweepFn f R) (Cui Ciu : SpRows R) (reg : R) : ∀ (n : Nat) (m : Factors f R)
    (t : List (Factors f R)), alsTrace solver Cui Ciu reg n m = .ok t → ∀ k, k ≤ n →
    alsTrace solver Cui Ciu reg k m = .ok (t.take k) := by
  intro n
  induction n with
  | zero =>
    intro m t h k hk
    have : k = 0 := by omega
    subst this
    rfl
  | succ n ih =>
    intro m t h k hk
    cases k with
    | zero => rfl
    | succ k =>
      unfold alsTrace at h ⊢
      cases e : alsIteration solver Cui Ciu reg m with
      | error x => rw [e] at h; exact absurd h (by simp [bind, Except.bind])
      | ok x =>
        rw [e] at h
        simp only [bind, Except.bind] at h ⊢
        cases e' : alsTrace solver Cui Ciu reg n x with
        | error y => rw [e'] at h; exact absurd h (by simp)
        | ok rest =>
          rw [e'] at h
          simp only [pure, Except.pure] at h
          injection h with h
          subst h
          rw [ih x rest e' k (by omega)]
          rfl

/-- **C66** (ALS).  `fit` with a callback that only looks: it returns, the callback is called once in each of the `n` iterations, in
order, and sees factors whose objective never increases; the last are the trained factors. -/
theorem C66_als [IsStrictOrderedRing R] (S : Solver f R) (tol : R) (p : ALSParams R) (torn : Factors f R → Factors f R)
    (C : SpRows R) (n : Nat) (m : AlsTrainee f R) (hreg : 0 < m.regularization) (hC : C.length = m.factors.user.length)
    (hv : ∀ row ∈ C, ValidRow m.factors.item.length row)
    (htot : 0 < Spec.totalConfidence C m.factors.user.length m.factors.item.length)
    (cbs : Nat → PyCallback (AlsTrainee f R) (Option R)) (hp : ∀ c, Spec.Passive (cbs c)) (clock : Nat → Rat) (c : Nat)
    (ht : (cbs c).truthy = true) :
    let run := fitLoop (alsLoop (alsSolver S tol p) torn m.factors.item.length C) cbs clock n 0 (some c) m
    run.outcome = .ok () ∧ run.calls.map (·.iteration) = List.range n ∧
      run.model = { m with factors := (run.calls.map (·.seen.factors)).getLast?.getD m.factors } ∧
      (m.factors :: run.calls.map (·.seen.factors)).Pairwise (fun a b =>
        Spec.objective C b.user b.item m.regularization ≤ Spec.objective C a.user a.item m.regularization) ∧
      ((m.calculateTrainingLoss = true → ∃ losses : List R, run.calls.map (·.info) = losses.map some ∧
        losses.Pairwise (fun a b => b ≤ a)) ∧
       (m.calculateTrainingLoss = false → run.calls.map (·.info) = List.replicate n none)) := by
  obtain ⟨trace, e, hlen, hpw, hsh⟩ := C13_training S tol p hreg C n m.factors hC hv
  obtain ⟨trace', losses, e', hloss, hll, hlp⟩ := C13_reported_loss S tol p hreg C n m.factors hC hv htot
  have : trace' = trace := by rw [e] at e'; injection e' with h; exact h.symm
  subst this
  have hloss' : ∀ k (hk : k < trace'.length), ∃ l, losses[k]? = some l ∧
      calculateLoss C m.factors.item.length trace'[k].user trace'[k].item m.regularization = .ok l := by
    intro k hk
    obtain ⟨l, h1, h2⟩ := (mapM_ok_iff hloss).2 k _ (List.getElem?_eq_getElem hk)
    exact ⟨l, h2, h1⟩
  have hlossAll : ∀ x ∈ trace', ∃ l, calculateLoss C m.factors.item.length x.user x.item m.regularization = .ok l := by
    intro x hx
    obtain ⟨k, hk, rfl⟩ := List.getElem_of_mem hx
    obtain ⟨l, -, h⟩ := hloss' k hk
    exact ⟨l, h⟩
  obtain ⟨L, hL⟩ : ∃ L, L = alsLoop (alsSolver S tol p) torn m.factors.item.length C := ⟨_, rfl⟩
  have hrep : ∀ k, k ≤ n → repeated L.body k m =
      (.ok (), { m with factors := (trace'.take k).getLast?.getD m.factors }) := by
    intro k hk
    rw [hL]
    exact repeated_als _ torn _ C k m _ (alsTrace_prefix _ _ _ _ n _ _ e k hk)
      fun _ x hx => hlossAll x (List.mem_of_mem_take hx)
  intro run
  have hrun : run = fitLoop L cbs clock n 0 (some c) m := by rw [hL]
  clear_value run
  have hpas := C66_passive L cbs hp clock n 0 (some c) m
  rw [← hrun, hrep n le_rfl] at hpas
  have ho : run.outcome = .ok () := congrArg Prod.fst hpas
  have hmodel : run.model = { m with factors := (trace'.take n).getLast?.getD m.factors } := congrArg Prod.snd hpas
  rw [List.take_of_length_le (by omega)] at hmodel
  obtain ⟨j, -, h2, -, h4, -, h6⟩ := C66_order L cbs clock n 0 (some c) m
  rw [← hrun] at h2 h6
  have hj := h4 ht
  subst hj
  have hcl : run.calls.length = n := by have := h6 ho (Or.inl ht); omega
  have hget : ∀ k (hk : k < n), ∃ ev, run.calls[k]? = some ev ∧ trace'[k]? = some ev.seen.factors ∧
      (m.calculateTrainingLoss = true → ∃ l, losses[k]? = some l ∧ ev.info = some l) ∧
      (m.calculateTrainingLoss = false → ev.info = none) := by
    intro k hk
    obtain ⟨ev, g1, -, g3, -, before, g5, g6⟩ := C66_sees L cbs clock n 0 c m ht (hp c) k hk _ (hrep (k + 1) (by omega))
    rw [← hrun] at g1
    have hk' : k < trace'.length := by omega
    have hlast : (trace'.take (k + 1)).getLast?.getD m.factors = trace'[k] := by
      rw [List.take_add_one, List.getElem?_eq_getElem hk', Option.toList_some, List.getLast?_append]
      rfl
    have hseen : ev.seen.factors = trace'[k] := by rw [g3]; exact hlast
    refine ⟨ev, g1, by rw [hseen, List.getElem?_eq_getElem hk'], ?_, ?_⟩
    · intro hc
      obtain ⟨l, hl1, hl2⟩ := hloss' k hk'
      refine ⟨l, hl1, ?_⟩
      rw [hrep k (by omega)] at g5
      have hbef : before = { m with factors := (trace'.take k).getLast?.getD m.factors } := (congrArg Prod.snd g5).symm
      rw [hL] at g6
      unfold alsLoop at g6
      simp only at g6
      cases hi : alsIteration (alsSolver S tol p) C (transposeRows m.factors.item.length C) before.regularization
        before.factors with
      | error x => rw [hi] at g6; exact absurd (congrArg Prod.fst g6) (by simp)
      | ok x =>
        rw [hi] at g6
        simp only at g6
        have hbc : before.calculateTrainingLoss = true := by rw [hbef]; exact hc
        have hbr : before.regularization = m.regularization := by rw [hbef]
        rw [if_pos hbc] at g6
        have hx : x = trace'[k] := by
          rw [← hlast]
          cases hcl : calculateLoss C m.factors.item.length x.user x.item before.regularization with
          | error y => rw [hcl] at g6; exact absurd (congrArg Prod.fst g6) (by simp)
          | ok y =>
            rw [hcl] at g6
            exact congrArg AlsTrainee.factors (congrArg Prod.snd g6)
        rw [hx, hbr, hl2] at g6
        have := congrArg Prod.fst g6
        simp only [Except.ok.injEq] at this
        exact this.symm
    · intro hc
      rw [hrep k (by omega)] at g5
      have hbef : before = { m with factors := (trace'.take k).getLast?.getD m.factors } := (congrArg Prod.snd g5).symm
      rw [hL] at g6
      unfold alsLoop at g6
      simp only at g6
      cases hi : alsIteration (alsSolver S tol p) C (transposeRows m.factors.item.length C) before.regularization
        before.factors with
      | error x => rw [hi] at g6; exact absurd (congrArg Prod.fst g6) (by simp)
      | ok x =>
        rw [hi] at g6
        simp only at g6
        have hbc : before.calculateTrainingLoss = false := by rw [hbef]; exact hc
        rw [if_neg (by rw [hbc]; simp)] at g6
        have := congrArg Prod.fst g6
        simp only [Except.ok.injEq] at this
        exact this.symm
  have hmap : run.calls.map (·.seen.factors) = trace' := by
    apply List.ext_getElem?
    intro k
    by_cases hk : k < n
    · obtain ⟨ev, g1, g2, -⟩ := hget k hk
      rw [List.getElem?_map, g1, g2]
      rfl
    · rw [List.getElem?_eq_none (by simp; omega), List.getElem?_eq_none (by omega)]
  refine ⟨ho, ?_, ?_, ?_, ?_, ?_⟩
  · rw [h2, hcl, List.range_eq_range']
  · rw [hmap, hmodel]
  · rw [hmap]; exact hpw
  · intro hc
    refine ⟨losses, ?_, hlp⟩
    apply List.ext_getElem?
    intro k
    by_cases hk : k < n
    · obtain ⟨ev, g1, -, g3, -⟩ := hget k hk
      obtain ⟨l, l1, l2⟩ := g3 hc
      rw [List.getElem?_map, g1, List.getElem?_map, l1]
      simp [l2]
    · rw [List.getElem?_eq_none (by simp; omega), List.getElem?_eq_none (by simp; omega)]
  · intro hc
    apply List.ext_getElem?
    intro k
    by_cases hk : k < n
    · obtain ⟨ev, g1, -, -, g4⟩ := hget k hk
      rw [List.getElem?_map, g1]
      simp [g4 hc, hk]
    · rw [List.getElem?_eq_none (by simp; omega), List.getElem?_eq_none (by simp; omega)]

/-- **C66** (ALS, fitting again).  Fitting `a` iterations and then, on the same model, `b` more is fitting `a + b` iterations. -/
theorem C66_als_resume (S : Solver f R) (tol : R) (p : ALSParams R) (cols : Nat) (C : SpRows R) (init m : Factors f R) (a b : Nat)
    (h : alsFit S tol { p with iterations := a } cols C init = .ok m) :
    alsFit S tol { p with iterations := b } cols C m = alsFit S tol { p with iterations := a + b } cols C init := by
  unfold alsFit at h ⊢
  have hs : ∀ k, alsSolver S tol { p with iterations := k } = alsSolver S tol p := fun _ => rfl
  simp only [hs, bind, Except.bind] at h ⊢
  cases e : alsTrace (alsSolver S tol p) (applyAlpha p.alpha C) (transposeRows cols (applyAlpha p.alpha C)) p.regularization a
    init with
  | error x => rw [e] at h; exact absurd h (by simp)
  | ok t =>
    rw [e] at h
    simp only [pure, Except.pure] at h
    injection h with h
    rw [alsTrace_append _ _ _ _ b a init t e, h]
    cases alsTrace (alsSolver S tol p) (applyAlpha p.alpha C) (transposeRows cols (applyAlpha p.alpha C)) p.regularization b
      m with
    | error x => rfl
    | ok t' =>
      simp only [Except.map, pure, Except.pure, Except.ok.injEq]
      rw [← h]
      cases t' with
      | nil => simp
      | cons x l => simp [List.getLast?_cons]

/-- **C66** (GPU ALS, fitting again). -/
theorem C66_gpu_als_resume (tol : R) (p : GpuALSParams R) (cols : Nat) (C : SpRows R) (init m : Factors f R) (a b : Nat)
    (h : gpuAlsFit tol { p with iterations := a } cols C init = .ok m) :
    gpuAlsFit tol { p with iterations := b } cols C m = gpuAlsFit tol { p with iterations := a + b } cols C init := by
  unfold gpuAlsFit at h ⊢
  have hs : ∀ k (n : Nat) (x : Factors f R), gpuIterations tol { p with iterations := k } C.length cols C
      (transposeRows cols C) n x = gpuIterations tol p C.length cols C (transposeRows cols C) n x := by
    intro k n
    induction n with
    | zero => intro x; rfl
    | succ n ih =>
      intro x
      unfold gpuIterations
      congr 1
      funext y
      exact ih y
  simp only [hs] at h ⊢
  induction a generalizing init with
  | zero =>
    unfold gpuIterations at h
    injection h with h
    rw [h, Nat.zero_add]
  | succ a ih =>
    rw [show a + 1 + b = (a + b) + 1 by omega]
    unfold gpuIterations at h
    rw [gpuIterations.eq_2]
    cases e : gpuIteration tol p C.length cols C (transposeRows cols C) init with
    | error x => rw [e] at h; exact absurd h (by simp [bind, Except.bind])
    | ok x =>
      rw [e] at h
      exact ih x h

/-- **C66** (BPR, fitting again).  Fitting again continues from the factors: two fits are one fit with the epochs of both.  (The
draws are not those a longer first fit would have made: the generator starts anew.) -/
theorem C66_bpr_resume {Th : Type} [DecidableEq Th] (sig : R → R) (lr reg : R) (verify : Bool) (factors : Nat)
    (randItem randUser randItem' randUser' : Nat → Nat → R) (matrix : List (List Nat)) (item user : Option (Nat → Nat → R))
    (σ : Th → BprScratch R) (first second : List (BprEpoch Th)) :
    let m := bprFit sig lr reg verify factors randItem randUser matrix item user σ first
    bprFit sig lr reg verify factors randItem' randUser' matrix (some fun i j => m (.item i j)) (some fun u j => m (.user u j)) σ
      second = bprFit sig lr reg verify factors randItem randUser matrix item user σ (first ++ second) := by
  have happ : ∀ (a b : List (BprEpoch Th)) (x : BprCell → R),
      bprEpochs sig lr reg σ (a ++ b) x = bprEpochs sig lr reg σ b (bprEpochs sig lr reg σ a x) := by
    intro a b
    induction a with
    | nil => intro x; rfl
    | cons e a ih => intro x; exact ih _
  intro m
  have hinit : bprInit factors randItem' randUser' (bprRows verify matrix) (some fun i j => m (.item i j))
      (some fun u j => m (.user u j)) = m := by
    funext c
    cases c <;> rfl
  show bprEpochs sig lr reg σ second _ = bprEpochs sig lr reg σ (first ++ second) _
  rw [hinit, happ]
  rfl

/-! ## Where this fails -/

/-- One epoch of LMF with a single user, a single item and one stored entry of value 1, without negative samples. -/
theorem lmfEpoch_single (sigm sqrt : R → R) (eps lr reg : R) (x s y t : Vec 2 R) (d : LmfDraws) :
    lmfEpoch (factors := 0) sigm sqrt eps lr reg 0 [[(0, 1)]] [[(0, 1)]] ⟨⟨[x], [s]⟩, ⟨[y], [t]⟩⟩ d =
      let x' := Function.update (lmfRow sigm sqrt eps lr reg [(y, 1)] [] x s).1 0 1
      .ok ⟨⟨[x'], [(lmfRow sigm sqrt eps lr reg [(y, 1)] [] x s).2]⟩,
        ⟨[Function.update (lmfRow sigm sqrt eps lr reg [(x', 1)] [] y t).1 1 1],
          [(lmfRow sigm sqrt eps lr reg [(x', 1)] [] y t).2]⟩⟩ := by
  rfl

/-- The user bias and its sum of squared derivatives after this epoch. -/
theorem lmfEpoch_bias (sigm sqrt : R → R) (eps lr : R) (x s y t : Vec 2 R) (d : LmfDraws) (hy : y 1 = 1) :
    ∃ x' s' y' t' : Vec 2 R,
      lmfEpoch (factors := 0) sigm sqrt eps lr 0 0 [[(0, 1)]] [[(0, 1)]] ⟨⟨[x], [s]⟩, ⟨[y], [t]⟩⟩ d =
        .ok ⟨⟨[x'], [s']⟩, ⟨[y'], [t']⟩⟩ ∧ y' 1 = 1 ∧
      s' 1 = s 1 + (1 - sigm (dot x y)) * (1 - sigm (dot x y)) ∧
      x' 1 = x 1 + lr / sqrt (eps + (s 1 + (1 - sigm (dot x y)) * (1 - sigm (dot x y)))) * (1 - sigm (dot x y)) := by
  rw [lmfEpoch_single]
  refine ⟨_, _, _, _, rfl, by simp, ?_, ?_⟩
  · simp [lmfRow, lmfDeriv, lmfPositive, lmfPositiveSig, hy]
  · rw [Function.update_of_ne (by decide)]
    simp [lmfRow, lmfDeriv, lmfPositive, lmfPositiveSig, hy]

/-- **C66 is violated** by LMF: fitting one epoch twice is not fitting two epochs, because `fit` starts with new sums of squared
derivatives (`implicit/cpu/lmf.pyx:168-169`) and so with longer steps.  For every function below 1 in place of the sigmoid and every
positive, strictly increasing one in place of the square root. -/
theorem C66_lmf_resume_violated [IsStrictOrderedRing R] (sigm sqrt : R → R) (h1 : ∀ z, sigm z < 1)
    (h2 : ∀ a b, 0 < a → a < b → 0 < sqrt a ∧ sqrt a < sqrt b) (eps lr : R) (heps : 0 < eps) (hlr : 0 < lr)
    (rand : Nat → Vec 2 R) (d : LmfDraws) :
    ∃ once twice both : LmfState 2 R,
      lmfFit (factors := 0) sigm sqrt eps lr 0 0 1 [[(0, 1)]] rand rand none none [d] = .ok once ∧
      lmfFit (factors := 0) sigm sqrt eps lr 0 0 1 [[(0, 1)]] rand rand (some once.item.factors) (some once.user.factors) [d] =
        .ok twice ∧
      lmfFit (factors := 0) sigm sqrt eps lr 0 0 1 [[(0, 1)]] rand rand none none [d, d] = .ok both ∧
      twice.user.factors ≠ both.user.factors := by
  have fit : ∀ (item user : Option (List (Vec 2 R))) (ds : List LmfDraws),
      lmfFit (factors := 0) sigm sqrt eps lr 0 0 1 [[(0, 1)]] rand rand item user ds =
        lmfEpochs (factors := 0) sigm sqrt eps lr 0 0 [[(0, 1)]] [[(0, 1)]] ds
          ⟨⟨user.getD [Function.update (rand 0) 0 1], [fun _ => 0]⟩, ⟨item.getD [Function.update (rand 0) 1 1], [fun _ => 0]⟩⟩ := by
    intro item user ds
    rfl
  obtain ⟨x₁, s₁, y₁, t₁, e₁, hy₁, hs₁, -⟩ := lmfEpoch_bias sigm sqrt eps lr (Function.update (rand 0) 0 1) (fun _ => 0)
    (Function.update (rand 0) 1 1) (fun _ => 0) d (by simp)
  obtain ⟨x₂, s₂, y₂, t₂, e₂, -, -, hx₂⟩ := lmfEpoch_bias sigm sqrt eps lr x₁ (fun _ => 0) y₁ (fun _ => 0) d hy₁
  obtain ⟨x₃, s₃, y₃, t₃, e₃, -, -, hx₃⟩ := lmfEpoch_bias sigm sqrt eps lr x₁ s₁ y₁ t₁ d hy₁
  refine ⟨⟨⟨[x₁], [s₁]⟩, ⟨[y₁], [t₁]⟩⟩, ⟨⟨[x₂], [s₂]⟩, ⟨[y₂], [t₂]⟩⟩, ⟨⟨[x₃], [s₃]⟩, ⟨[y₃], [t₃]⟩⟩, ?_, ?_, ?_, ?_⟩
  · simp only [fit, lmfEpochs, Option.getD_none, bind, Except.bind, e₁]
  · simp only [fit, lmfEpochs, Option.getD_some, bind, Except.bind, e₂]
  · simp only [fit, lmfEpochs, Option.getD_none, bind, Except.bind, e₁, e₃]
  · simp only [ne_eq, List.cons.injEq, and_true]
    intro h
    have h := congrFun h 1
    rw [hx₂, hx₃] at h
    have hw := h1 (dot x₁ y₁)
    have hw0 := h1 (dot (Function.update (rand 0) 0 1) (Function.update (rand 0) 1 1))
    generalize sigm (dot x₁ y₁) = w at h hw
    generalize sigm (dot (Function.update (rand 0) 0 1) (Function.update (rand 0) 1 1)) = w0 at hs₁ hw0
    have hpos : 0 < (1 - w) * (1 - w) := mul_pos (by linarith) (by linarith)
    have hpos0 : 0 < (1 - w0) * (1 - w0) := mul_pos (by linarith) (by linarith)
    rw [hs₁] at h
    obtain ⟨q1, q2⟩ := h2 (eps + (0 + (1 - w) * (1 - w))) (eps + (0 + (1 - w0) * (1 - w0) + (1 - w) * (1 - w)))
      (by linarith) (by linarith)
    have h := mul_right_cancel₀ (by linarith : (1 - w) ≠ 0) (add_left_cancel h)
    have := div_lt_div_of_pos_left hlr q1 q2
    linarith

/-- With the functions of the code. -/
example (rand : Nat → Vec 2 ℝ) (d : LmfDraws) :
    ∃ once twice both : LmfState 2 ℝ,
      lmfFit (factors := 0) lmfSigmoid Real.sqrt (1 / 10 ^ 6) 1 0 0 1 [[(0, 1)]] rand rand none none [d] = .ok once ∧
      lmfFit (factors := 0) lmfSigmoid Real.sqrt (1 / 10 ^ 6) 1 0 0 1 [[(0, 1)]] rand rand (some once.item.factors)
        (some once.user.factors) [d] = .ok twice ∧
      lmfFit (factors := 0) lmfSigmoid Real.sqrt (1 / 10 ^ 6) 1 0 0 1 [[(0, 1)]] rand rand none none [d, d] = .ok both ∧
      twice.user.factors ≠ both.user.factors := by
  refine C66_lmf_resume_violated lmfSigmoid Real.sqrt ?_ ?_ _ _ (by norm_num) one_pos rand d
  · intro z
    unfold lmfSigmoid
    have h1 := Real.exp_pos z
    have h2 := Real.exp_pos (-z)
    split
    · rw [div_lt_one (by linarith)]; linarith
    · simp only
      rw [div_lt_one (by linarith)]; linarith
  · intro a b ha hab
    exact ⟨Real.sqrt_pos.mpr ha, Real.sqrt_lt_sqrt ha.le hab⟩

/-- **C66 is violated** by a callable object that counts as false (an object with `__len__`, say, that is still empty): it is
never called. -/
theorem C66_falsy_violated (L : TrainLoop M I) (hL : ∀ m, L.fallback m = none) (cbs : Nat → PyCallback M I) (clock : Nat → Rat)
    (n i c : Nat) (m : M) (h : (cbs c).truthy = false) : (fitLoop L cbs clock n i (some c) m).calls = [] := by
  have key : ∀ (n i : Nat) (cb : Option Nat) (m : M), truthyCb cbs cb = false → (fitLoop L cbs clock n i cb m).calls = [] := by
    intro n
    induction n with
    | zero => intro i cb m _; rfl
    | succ n ih =>
      intro i cb m hcb
      unfold fitLoop
      rcases hb : L.body m with ⟨r, m'⟩
      cases r with
      | error x => rfl
      | ok info =>
        simp only [hcb, hL]
        exact ih _ _ _ rfl
  exact key n i (some c) m h

/-- **C66** (elapsed time).  The times passed to the callback are differences of two readings of the clock, never negative if the
clock never goes back. -/
theorem C66_elapsed (L : TrainLoop M I) (cbs : Nat → PyCallback M I) (clock : Nat → Rat) (hclock : ∀ a b, a ≤ b → clock a ≤ clock b)
    (n i : Nat) (cb : Option Nat) (m : M) : ∀ e ∈ (fitLoop L cbs clock n i cb m).calls, 0 ≤ e.elapsed := by
  induction n generalizing i cb m with
  | zero => intro e he; simp [fitLoop] at he
  | succ n ih =>
    intro e he
    unfold fitLoop at he
    rcases hb : L.body m with ⟨r, m'⟩
    rw [hb] at he
    cases r with
    | error x => simp at he
    | ok info =>
      simp only at he
      generalize (if truthyCb cbs cb = true then cb else L.fallback m') = cb' at he
      cases cb' with
      | none => exact ih _ _ _ e he
      | some c =>
        by_cases ht : (cbs c).truthy = true
        · simp only [ht, if_true] at he
          have h0 : 0 ≤ clock (2 * i + 1) - clock (2 * i) := sub_nonneg.mpr (hclock _ _ (by omega))
          rcases hc : (cbs c).call i (clock (2 * i + 1) - clock (2 * i)) info m' with ⟨r, m''⟩
          rw [hc] at he
          cases r with
          | error x =>
            simp only [List.mem_singleton] at he
            rw [he]; exact h0
          | ok u =>
            simp only [List.mem_cons] at he
            rcases he with rfl | he
            · exact h0
            · exact ih _ _ _ e he
        · have hf : (cbs c).truthy = false := by simpa using ht
          simp only [hf] at he
          exact ih _ _ _ e he

/-- **C66 is violated** when the system clock is set back during an iteration (`time.time()` is not monotonic): the callback is
told a negative time. -/
theorem C66_elapsed_violated : ∃ (clock : Nat → Rat) (cbs : Nat → PyCallback Nat Unit),
    ((fitLoop ⟨fun m => (.ok (), m + 1), fun _ => none⟩ cbs clock 1 0 (some 0) 0).calls.map (·.elapsed)) = [-3600] :=
  ⟨fun k => if k = 0 then 3600 else 0, fun _ => ⟨true, fun _ _ _ m => (.ok (), m)⟩, by decide +kernel⟩

theorem bindParams_required (kw : List (PName × ArgVal)) (hkw : kw = []) : ∀ (names : List PName) (pos : List ArgVal),
    pos.length < names.length → bindParams kw (names.map fun p => (p, none)) pos = .error .typeError
  | [], pos, h => by simp at h
  | p :: names, pos, h => by
    subst hkw
    cases pos with
    | nil => rfl
    | cons v pos =>
      have := bindParams_required [] rfl names pos (by simpa using h)
      simp only [List.map_cons, bindParams, List.tail_cons, this]
      rfl

/-- **C66 is violated** across the models: a function with a fixed list of parameters (no defaults, no `*args`) can be called by at
most one of ALS, BPR and LMF, because they pass 3, 4 and 2 arguments; the others raise `TypeError`, in the middle of `fit`. -/
theorem C66_signature_violated (names : List PName) :
    [PyClass.cpuAls, .cpuBpr, .cpuLmf].Pairwise fun a b => ∃ cls, (cls = a ∨ cls = b) ∧
      ∀ args : List ArgVal, args.length = callbackArgs cls →
        pyBind ⟨names.map fun p => (p, none), [], false, false⟩ ⟨args, []⟩ = .error .typeError := by
  have key : ∀ cls, names.length ≠ callbackArgs cls → ∀ args : List ArgVal, args.length = callbackArgs cls →
      pyBind ⟨names.map fun p => (p, none), [], false, false⟩ ⟨args, []⟩ = .error .typeError := by
    intro cls hne args ha
    unfold pyBind
    rcases Nat.lt_or_gt_of_ne (ha ▸ hne) with h | h
    · rw [if_pos ⟨by simpa using h, rfl⟩]
    · rw [if_neg (by simp; omega), if_neg (by simp), if_neg (by simp), if_neg (by simp)]
      simp only [bindParams_required [] rfl names args h]
  have two : ∀ a b, callbackArgs a ≠ callbackArgs b → ∃ cls, (cls = a ∨ cls = b) ∧
      ∀ args : List ArgVal, args.length = callbackArgs cls →
        pyBind ⟨names.map fun p => (p, none), [], false, false⟩ ⟨args, []⟩ = .error .typeError := by
    intro a b hab
    by_cases h : names.length = callbackArgs a
    · exact ⟨b, Or.inr rfl, key b (fun h' => hab (h.symm.trans h'))⟩
    · exact ⟨a, Or.inl rfl, key a h⟩
  simp only [List.pairwise_cons, List.mem_cons, List.not_mem_nil, or_false, forall_eq_or_imp, forall_eq, false_implies,
    implies_true, List.Pairwise.nil, and_true]
  exact ⟨⟨two _ _ (by decide), two _ _ (by decide)⟩, two _ _ (by decide)⟩

/-- **C66 is violated** on the GPU for callbacks that assign factors: the loop has bound the matrices before and goes on training
these, and the model keeps what was assigned, untrained — on the CPU it is trained in the following iterations (`C66_changes`). -/
theorem C66_gpu_assign_violated (tol : R) (torn : Factors f R → Factors f R) (cols : Nat) (C : SpRows R)
    (n : Nat) (m : GpuAlsTrainee f R) (x : Factors f R) :
    let after := (repeated (gpuAlsLoop tol torn cols C).body n { m with rebound := some x }).2
    after.factors = x ∧ after.local_ = (repeated (gpuAlsLoop tol torn cols C).body n { m with rebound := none }).2.local_ := by
  have body : ∀ m : GpuAlsTrainee f R, (gpuAlsLoop tol torn cols C).body { m with rebound := some x } =
      (((gpuAlsLoop tol torn cols C).body { m with rebound := none }).1,
        { ((gpuAlsLoop tol torn cols C).body { m with rebound := none }).2 with rebound := some x }) ∧
      ((gpuAlsLoop tol torn cols C).body { m with rebound := none }).2.rebound = none := by
    intro m
    unfold gpuAlsLoop
    simp only
    split
    · exact ⟨rfl, rfl⟩
    · split
      · split <;> exact ⟨rfl, rfl⟩
      · exact ⟨rfl, rfl⟩
  have : ∀ n (m : GpuAlsTrainee f R), m.rebound = none →
      (repeated (gpuAlsLoop tol torn cols C).body n { m with rebound := some x }).2 =
        { (repeated (gpuAlsLoop tol torn cols C).body n m).2 with rebound := some x } := by
    intro n
    induction n with
    | zero => intro m h; rfl
    | succ n ih =>
      intro m h
      obtain ⟨hb, hn⟩ := body m
      have hm : { m with rebound := none } = m := by cases m; cases h; rfl
      rw [hm] at hb hn
      unfold repeated
      rw [hb]
      rcases hr : (gpuAlsLoop tol torn cols C).body m with ⟨r, m'⟩
      rw [hr] at hn
      cases r with
      | error e => rfl
      | ok i => exact ih m' hn
  have := this n { m with rebound := none } rfl
  intro after
  have ha : after = { (repeated (gpuAlsLoop tol torn cols C).body n { m with rebound := none }).2 with rebound := some x } := this
  rw [ha]
  exact ⟨rfl, rfl⟩

/-- **C66** (the check comes last).  `fit` returns normally only if the loop ended normally and the model it leaves behind passes
the check. -/
theorem C66_checked (L : TrainLoop M I) (check : M → Except Err Unit) (cbs : Nat → PyCallback M I) (clock : Nat → Rat) (n : Nat)
    (cb : Option Nat) (m : M) :
    let run := fitRun L check cbs clock n cb m
    run.outcome = .ok () ↔ (fitLoop L cbs clock n 0 cb m).outcome = .ok () ∧ check run.model = .ok () := by
  intro run
  show (fitRun L check cbs clock n cb m).outcome = _ ↔ _ ∧ check (fitRun L check cbs clock n cb m).model = _
  unfold fitRun
  cases h : (fitLoop L cbs clock n 0 cb m).outcome with
  | error e => simp [h]
  | ok u => simp [h]

/-! ## Examples -/

/-- A callback that records nothing and stops in iteration 1 of 5, by raising. -/
example :
    let run := fitRun (M := Nat) (I := Nat) ⟨fun m => (.ok (m * m), m + 1), fun _ => none⟩ (fun _ => .ok ())
      (fun _ => ⟨true, fun i _ _ m => (if i = 1 then .error .runtimeError else .ok (), m)⟩) (fun k => k) 5 (some 7) 10
    run.outcome.toOption = none ∧ run.model = 12 ∧ run.calls.map (fun e => (e.who, e.iteration, e.elapsed, e.info, e.seen)) =
      [(7, 0, 1, 100, 11), (7, 1, 1, 121, 12)] := by
  decide +kernel

/-- `fit_callback` is used when no callback is passed, and once found it stays in use, although it removes itself. -/
example :
    let run := fitRun (M := Nat × Option Nat) (I := Unit) ⟨fun m => (.ok (), (m.1 + 1, m.2)), Prod.snd⟩ (fun _ => .ok ())
      (fun _ => ⟨true, fun _ _ _ m => (.ok (), (m.1, none))⟩) (fun k => k) 3 none (0, some 4)
    run.calls.map (fun e => (e.who, e.iteration)) = [(4, 0), (4, 1), (4, 2)] := by
  decide +kernel

/-- ALS on two users and two items: the hypotheses of `C66_als` can be met. -/
example :
    let m : AlsTrainee 2 Rat := ⟨⟨[![1, 2], ![3, 4]], [![1, 0], ![0, 1]]⟩, 1 / 100, true, none⟩
    let run := fitLoop (alsLoop (alsSolver (exactSolver 2 Rat) (1 / 10 ^ 20) ⟨1 / 100, 1, true, true, 3, 15⟩) id 2
      [[(0, 3), (1, -2)], []]) (fun _ => ⟨true, fun _ _ _ m => (.ok (), m)⟩) (fun k => k) 15 0 (some 0) m
    run.calls.map (·.iteration) = List.range 15 := by
  intro m run
  refine (C66_als (exactSolver 2 Rat) (1 / 10 ^ 20) ⟨1 / 100, 1, true, true, 3, 15⟩ id [[(0, 3), (1, -2)], []] 15 m (by norm_num)
    rfl ?_ (by decide +kernel) _ (fun _ _ _ _ _ => rfl) _ 0 rfl).2.1
  intro row hrow
  simp only [List.mem_cons, List.not_mem_nil, or_false] at hrow
  rcases hrow with rfl | rfl
  · exact ⟨by decide, by intro e he; simp at he; rcases he with rfl | rfl <;> decide⟩
  · exact ⟨by decide, by simp⟩

end Implicit
