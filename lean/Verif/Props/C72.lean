import Verif.Lemmas.SharedKnn
import Verif.Props.C25
/-!
# C72 — threads that share a fitted model

A schedule says which thread takes the next step.  The answers a caller gets are compared with those of a single thread.
-/

set_option linter.unusedSectionVars false

namespace Implicit

variable {R : Type} [LinearOrder R] [Field R]

/-! ## Item-item models -/

/-- The arguments pass the checks of `recommend` only with at least one result asked for and a row of ratings of items of the
model. -/
def KnnQuery.Valid (sim : SpRows R) (q : KnnQuery R) : Prop :=
  ∀ n, knnPlan sim.length q.N q.filterItems q.items = .ok n → 1 ≤ n ∧ ∃ row rest, q.rows = row :: rest ∧ ∀ e ∈ row, e.1 < sim.length

/-- The thread that makes the given queries, one after the other. -/
def knnThread (H : HeapImpl (R × Nat) pairLt) (lowest : R) (sim : SpRows R) (me : Nat) (qs : List (KnnQuery R)) :
    Prog (KnnShared R) (List (Except Err (List (Int × R)))) :=
  Prog.sequence (qs.map fun q => knnCallProg H lowest sim me q.rows q.N q.liked q.filterItems q.items)

/-- A process whose threads make the given queries on a model just fitted or loaded. -/
def knnProcess (H : HeapImpl (R × Nat) pairLt) (lowest : R) (sim : SpRows R) (threads : List (List (KnnQuery R))) :
    Proc (KnnShared R) (List (Except Err (List (Int × R)))) :=
  ⟨⟨Accum.new sim.length, none⟩, threads.mapIdx (knnThread H lowest sim)⟩

theorem knnCallProg_safe (H : HeapImpl (R × Nat) pairLt) (lowest : R) (sim : SpRows R) (hsim : SquareRows sim) (me : Nat)
    (q : KnnQuery R) (hq : q.Valid sim) :
    Safe (knnRely sim.length me) (knnGuar sim.length me) (knnBlocked me)
      (fun r s => r = (q.run H lowest (KnnState.ofSimilarity sim)).1 ∧ s.lock ≠ some me ∧ KnnRest sim.length s)
      (knnCallProg H lowest sim me q.rows q.N q.liked q.filterItems q.items)
      (fun s => s.lock ≠ some me ∧ KnnRest sim.length s) := by
  have hK : Stable (knnRely sim.length me) fun s : KnnShared R => s.lock ≠ some me ∧ KnnRest sim.length s :=
    fun t t' ht hr => ⟨hr.2.1 ht.1, hr.2.2 ht.2⟩
  obtain ⟨rows, N, liked, F, I⟩ := q
  unfold KnnQuery.run knnRecommendOne knnCallProg
  have hplan : (KnnState.ofSimilarity sim).similarity = sim := rfl
  simp only [hplan]
  cases hp : knnPlan sim.length N F I with
  | error e => exact Safe.done hK fun s hs => ⟨rfl, hs⟩
  | ok n =>
    obtain ⟨hn, row, rest, rfl, hrow⟩ := hq n hp
    obtain ⟨out, e, _⟩ := scorer_ok H sim hsim row hrow n hn liked
    have he : scorerRecommend H sim (KnnState.ofSimilarity sim).acc row n liked = .ok (out, Accum.new sim.length) := e
    simp only [he]
    refine Safe.andThen (errs := fun _ _ => False)
      (post := fun a s => a = out ∧ s.lock ≠ some me ∧ KnnRest sim.length s) ((scorer_safe H sim me row n liked out e).weaken ?_)
      (fun _ _ _ hf => hf.elim) (fun _ _ hf => hf.elim) fun a => ?_
    · rintro r s ⟨rfl, hs⟩
      exact ⟨rfl, hs⟩
    · refine Safe.done (rest_stable _ _ _) fun s hs => ?_
      obtain ⟨rfl, hs⟩ := hs
      exact ⟨rfl, hs⟩

theorem knnThread_safe (H : HeapImpl (R × Nat) pairLt) (lowest : R) (sim : SpRows R) (hsim : SquareRows sim) (me : Nat)
    (qs : List (KnnQuery R)) (hqs : ∀ q ∈ qs, q.Valid sim) :
    Safe (knnRely sim.length me) (knnGuar sim.length me) (knnBlocked me)
      (fun r s => r = qs.map (fun q => (q.run H lowest (KnnState.ofSimilarity sim)).1) ∧
        s.lock ≠ some me ∧ KnnRest sim.length s)
      (knnThread H lowest sim me qs) (fun s => s.lock ≠ some me ∧ KnnRest sim.length s) := by
  have hK : Stable (knnRely sim.length me) fun s : KnnShared R => s.lock ≠ some me ∧ KnnRest sim.length s :=
    fun t t' ht hr => ⟨hr.2.1 ht.1, hr.2.2 ht.2⟩
  have h := Safe.sequence (guar := knnGuar sim.length me) (blocked := knnBlocked me) hK
    (qs.map fun q => (knnCallProg H lowest sim me q.rows q.N q.liked q.filterItems q.items,
      fun r => r = (q.run H lowest (KnnState.ofSimilarity sim)).1)) (by
    intro p hp
    obtain ⟨q, hq, rfl⟩ := List.mem_map.mp hp
    exact knnCallProg_safe H lowest sim hsim me q (hqs q hq))
  rw [List.map_map] at h
  refine h.weaken fun r s hs => ⟨?_, hs.2⟩
  have h1 := hs.1
  clear h hs hqs
  induction qs generalizing r with
  | nil => cases h1; rfl
  | cons q qs ih =>
    rw [List.map_cons] at h1
    cases h1 with
    | cons ha hr => rw [ih _ hr]; exact congrArg (· :: _) ha

theorem knn_others (n m : Nat) (i j : Fin m) (s s' : KnnShared R) (hij : i ≠ j) (hg : knnGuar n j s s') : knnRely n i s s' :=
  knnGuar_rely (fun e => hij (Fin.ext e)) hg

theorem knnProcess_safe (H : HeapImpl (R × Nat) pairLt) (lowest : R) (sim : SpRows R) (hsim : SquareRows sim)
    (threads : List (List (KnnQuery R))) (hv : ∀ qs ∈ threads, ∀ q ∈ qs, q.Valid sim) :
    AllSafe (n := threads.length) (fun i => knnRely sim.length i) (fun i => knnGuar sim.length i) (fun i => knnBlocked i)
      (fun i r s => r = (threads.getD i []).map (fun q => (q.run H lowest (KnnState.ofSimilarity sim)).1) ∧
        s.lock ≠ some i.val ∧ KnnRest sim.length s)
      (knnProcess H lowest sim threads) := by
  refine ⟨by simp [knnProcess], fun i p hp =>
    ⟨fun s => s.lock ≠ some i.val ∧ KnnRest sim.length s, ⟨by simp [knnProcess], fun _ => rfl⟩, ?_⟩⟩
  have hi := List.getElem?_eq_getElem i.isLt
  have hp' : p = knnThread H lowest sim i threads[i.val] := by
    simpa [knnProcess, List.getElem?_mapIdx, hi] using hp.symm
  have hg : threads.getD i [] = threads[i.val] := by rw [List.getD_eq_getElem?_getD, hi]; rfl
  rw [hp']
  simp only [hg]
  exact knnThread_safe H lowest sim hsim i _ (hv _ (List.getElem_mem _))

/-- **C72** (item-item models).  Any number of threads make any valid queries on one model, under any schedule: a thread that is
finished has got the answers that each of its queries gives alone on the fresh model. -/
theorem C72_item_item (H : HeapImpl (R × Nat) pairLt) (lowest : R) (sim : SpRows R) (hsim : SquareRows sim)
    (threads : List (List (KnnQuery R))) (hv : ∀ qs ∈ threads, ∀ q ∈ qs, q.Valid sim) (schedule : List Nat) (i : Nat)
    (qs : List (KnnQuery R)) (hi : threads[i]? = some qs) (answers : List (Except Err (List (Int × R))))
    (ha : ((knnProcess H lowest sim threads).run schedule).result i = some answers) :
    answers = qs.map fun q => (q.run H lowest (KnnState.ofSimilarity sim)).1 := by
  have hlt := (List.getElem?_eq_some_iff.mp hi).1
  have h := (knnProcess_safe H lowest sim hsim threads hv).run (knn_others sim.length threads.length) schedule
  have := (h.result ⟨i, hlt⟩ answers ha).1
  simpa [List.getD_eq_getElem?_getD, hi] using this

/-- **C72** (item-item models, the scorer).  Whenever nobody holds the lock, the accumulator is that of a new model. -/
theorem C72_item_item_rest (H : HeapImpl (R × Nat) pairLt) (lowest : R) (sim : SpRows R) (hsim : SquareRows sim)
    (threads : List (List (KnnQuery R))) (hv : ∀ qs ∈ threads, ∀ q ∈ qs, q.Valid sim) (schedule : List Nat)
    (hl : ((knnProcess H lowest sim threads).run schedule).state.lock = none) :
    ((knnProcess H lowest sim threads).run schedule).state.acc = Accum.new sim.length := by
  refine AllSafe.invariant (I := KnnRest sim.length) (knn_others sim.length threads.length) ?_ schedule
    (knnProcess_safe H lowest sim hsim threads hv) (fun _ => rfl) hl
  intro i s s' hs hg
  rcases hg with rfl | ⟨-, e | ⟨-, e⟩⟩
  · exact hs
  · intro h
    rw [e] at h
    cases h
  · exact fun _ => e

/-- **C72** (item-item models, no deadlock).  As long as a thread is not finished, some thread can take a step; and when every
thread gets its turn again and again, all of them finish. -/
theorem C72_item_item_finish (H : HeapImpl (R × Nat) pairLt) (lowest : R) (sim : SpRows R) (hsim : SquareRows sim)
    (threads : List (List (KnnQuery R))) (hv : ∀ qs ∈ threads, ∀ q ∈ qs, q.Valid sim) :
    (∀ schedule, ((knnProcess H lowest sim threads).run schedule).finished = false →
      ∃ (i : Nat) (p : Prog _ _), ((knnProcess H lowest sim threads).run schedule).threads[i]? = some p ∧
        p.canRun ((knnProcess H lowest sim threads).run schedule).state = true) ∧
    ∀ schedule : Nat → Nat, (∀ i < threads.length, ∀ m, ∃ k, m ≤ k ∧ schedule k = i) →
      ∃ m, ((knnProcess H lowest sim threads).run ((List.range m).map schedule)).finished = true := by
  let Inv : Proc (KnnShared R) (List (Except Err (List (Int × R)))) → Prop := fun c =>
    AllSafe (n := threads.length) (fun i => knnRely sim.length i) (fun i => knnGuar sim.length i) (fun i => knnBlocked i)
      (fun i r s => r = (threads.getD i []).map (fun q => (q.run H lowest (KnnState.ofSimilarity sim)).1) ∧
        s.lock ≠ some i.val ∧ KnnRest sim.length s) c ∧
    ∀ j, c.state.lock = some j → j < threads.length
  have hrg := knn_others (R := R) sim.length threads.length
  have hstep : ∀ c i, Inv c → Inv (c.step i) := by
    rintro c i ⟨h, hj⟩
    refine ⟨(h.step hrg i).1, ?_⟩
    rcases (h.step hrg i).2 with e | ⟨k, e | ⟨-, e | ⟨e, -⟩⟩⟩
    · rw [e]; exact hj
    · rw [e]; exact hj
    · intro j h'
      rw [e] at h'
      cases h'
      exact k.isLt
    · intro j h'
      rw [e] at h'
      cases h'
  have h0 : Inv (knnProcess H lowest sim threads) :=
    ⟨knnProcess_safe H lowest sim hsim threads hv, fun j h => by simp [knnProcess] at h⟩
  have hrun : ∀ c, Inv c → c.finished = false → ∃ (i : Nat) (p : Prog _ _), c.threads[i]? = some p ∧ p.canRun c.state = true := by
    rintro c ⟨⟨hn, h⟩, hj⟩ hf
    obtain ⟨p, hp, hv⟩ : ∃ p ∈ c.threads, p.value?.isSome = false := by
      simpa [Proc.finished] using hf
    obtain ⟨i, hi⟩ := List.getElem?_of_mem hp
    have hil : i < threads.length := hn ▸ (List.getElem?_eq_some_iff.mp hi).1
    cases p with
    | done a => simp [Prog.value?] at hv
    | step ready act next =>
      cases hr : ready c.state with
      | true => exact ⟨i, _, hi, hr⟩
      | false =>
        obtain ⟨K, hK, hs⟩ := h ⟨i, hil⟩ _ hi
        obtain ⟨j, hlock, _⟩ := hs.2.1 _ hK hr
        have hjl := hj j hlock
        have hjt := List.getElem?_eq_getElem (l := c.threads) (i := j) (by omega)
        obtain ⟨K', hK', hs'⟩ := h ⟨j, hjl⟩ _ hjt
        refine ⟨j, _, hjt, ?_⟩
        cases hc : c.threads[j] with
        | done a =>
          rw [hc] at hs'
          exact absurd hlock (hs'.2 _ hK').2.1
        | step ready' act' next' =>
          rw [hc] at hs'
          show ready' c.state = true
          cases hr' : ready' c.state with
          | true => rfl
          | false =>
            obtain ⟨j', hlock', hne⟩ := hs'.2.1 _ hK' hr'
            rw [hlock] at hlock'
            cases hlock'
            exact absurd rfl hne
  have hall : ∀ (schedule : List Nat) c, Inv c → Inv (c.run schedule) := by
    intro schedule
    induction schedule with
    | nil => exact fun c h => h
    | cons j js ih => exact fun c h => ih _ (hstep c j h)
  exact ⟨fun schedule => hrun _ (hall schedule _ h0), fun schedule hfair =>
    Proc.fair_finishes Inv hstep hrun _ h0 threads.length (by simp [knnProcess]) schedule hfair⟩

/-- Three queries of two threads, interleaved step by step: the waiting thread gets its turn in vain. -/
example :
    let sim : SpRows Rat := [[(0, 4), (1, 2)], [(0, 2), (1, 3), (2, 1)], [(1, 1), (2, 5)]]
    let finish := (knnProcess insertionHeap (-1000) sim [[⟨[[(0, 1), (1, 2)]], 2, false, none, none⟩, ⟨[[(0, 1)]], 1, true, none, none⟩],
      [⟨[[(2, 1)]], 3, true, none, none⟩]]).run ((List.range 90).map (· % 2))
    finish.finished = true ∧ finish.result 0 = some [.ok [(1, 8), (0, 8)], .ok [(1, 2)]] ∧
      finish.result 1 = some [.ok [(1, 1), (2, 0)]] := by
  decide +kernel

/-- What the lock is for: the same statements without it, interleaved step by step.  One thread adds to the sums of the other, and
each empties the list the other is walking through. -/
example :
    let sim : SpRows Rat := [[(0, 4), (1, 2)], [(0, 2), (1, 3), (2, 1)], [(1, 1), (2, 5)]]
    let start : Proc (KnnShared Rat) (Except Err (List (Rat × Nat))) := ⟨⟨Accum.new 3, none⟩,
      [scorerBody insertionHeap sim [(0, 1)] 3 false, scorerBody insertionHeap sim [(2, 1)] 3 false]⟩
    (start.run (List.replicate 40 0)).result 0 = some (.ok [(2, 1), (4, 0)]) ∧
      (start.run ((List.range 90).map (· % 2))).result 0 = some (.error .undefinedBehaviour) := by
  decide +kernel

end Implicit
