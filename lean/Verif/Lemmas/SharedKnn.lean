import Verif.Model.SharedKnn
import Verif.Lemmas.Threads
import Verif.Lemmas.KnnScorer
/-!
# One thread at a time in the scorer
-/

set_option linter.unusedSectionVars false

namespace Implicit

theorem Prog.alone_bind {S α β : Type} (k : α → Prog S β) : ∀ (p : Prog S α) (s : S),
    (p.bind k).alone s = (p.alone s).bind fun r => (k r.1).alone r.2
  | .done _, _ => rfl
  | .step ready act next, s => by
    show (if ready s then ((next s).bind k).alone (act s) else none) =
      (if ready s then (next s).alone (act s) else none).bind _
    split_ifs
    · exact Prog.alone_bind k (next s) (act s)
    · rfl

theorem Prog.alone_andThen {S α β : Type} (k : α → Prog S (Except Err β)) (p : Prog S (Except Err α)) {s s' : S} {a : α}
    (h : p.alone s = some (.ok a, s')) : (p.andThen k).alone s = (k a).alone s' := by
  unfold Prog.andThen
  rw [Prog.alone_bind, h]
  rfl

variable {R : Type}

/-- While its thread `me` holds the lock, the program never waits and never frees it. -/
def Keeps {α : Type} (me : Nat) : Prog (KnnShared R) α → Prop
  | .done _ => True
  | .step ready act next => ∀ s : KnnShared R, s.lock = some me →
      ready s = true ∧ (act s).lock = some me ∧ Keeps me (next s)

theorem keeps_done {α : Type} (me : Nat) (a : α) : Keeps (R := R) me (.done a) := trivial

theorem Keeps.bind {α β : Type} {me : Nat} {k : α → Prog (KnnShared R) β} (hk : ∀ a, Keeps me (k a)) :
    ∀ {p : Prog (KnnShared R) α}, Keeps me p → Keeps me (p.bind k)
  | .done a, _ => hk a
  | .step _ _ _, h => fun s hs => ⟨(h s hs).1, (h s hs).2.1, Keeps.bind hk (h s hs).2.2⟩

theorem Keeps.andThen {α β : Type} {me : Nat} {k : α → Prog (KnnShared R) (Except Err β)} (hk : ∀ a, Keeps me (k a))
    {p : Prog (KnnShared R) (Except Err α)} (h : Keeps me p) : Keeps me (p.andThen k) := by
  refine Keeps.bind (fun r => ?_) h
  cases r with
  | error e => trivial
  | ok a => exact hk a

theorem keeps_accStep {α : Type} (me : Nat) (g : Accum R → Except Err (α × Accum R)) : Keeps me (accStep g) := by
  intro s hs
  refine ⟨rfl, ?_, trivial⟩
  simp only
  cases g s.acc <;> exact hs

theorem keeps_adds [Add R] (me : Nat) : ∀ es : List (Nat × R), Keeps me (addsProg es)
  | [] => trivial
  | _ :: es => Keeps.andThen (fun _ => keeps_adds me es) (keeps_accStep me _)

theorem keeps_clears [Zero R] (me : Nat) : ∀ is : List Nat, Keeps me (clearsProg (R := R) is)
  | [] => trivial
  | _ :: is => Keeps.andThen (fun _ => keeps_clears me is) (keeps_accStep me _)

theorem keeps_drain [Zero R] (me : Nat) : ∀ n : Nat, Keeps me (drainProg (R := R) n)
  | 0 => keeps_accStep me _
  | n + 1 => Keeps.andThen (fun _ => Keeps.andThen (fun _ => keeps_done me _) (keeps_drain me n)) (keeps_accStep me _)

theorem alone_accStep {α : Type} {g : Accum R → Except Err (α × Accum R)} {s : KnnShared R} {x : α} {b : Accum R}
    (h : g s.acc = .ok (x, b)) : (accStep g).alone s = some (.ok x, { s with acc := b }) := by
  unfold accStep Prog.atomic Prog.alone
  simp only [if_true, Prog.alone]
  rw [h]

theorem alone_adds [Add R] : ∀ (es : List (Nat × R)) (s : KnnShared R) (b : Accum R), s.acc.addAll es = .ok b →
    (addsProg es).alone s = some (.ok (), { s with acc := b })
  | [], s, b, h => by
    cases h
    rfl
  | e :: es, s, b, h => by
    unfold Accum.addAll at h
    cases h1 : s.acc.add e.1 e.2 with
    | error x => rw [h1] at h; cases h
    | ok a =>
      rw [h1] at h
      unfold addsProg
      rw [Prog.alone_andThen _ _ (alone_accStep (x := ()) (b := a) (by simp [h1, Except.map]))]
      exact alone_adds es _ b h

theorem alone_clears [Zero R] : ∀ (is : List Nat) (s : KnnShared R) (b : Accum R), s.acc.clearAll is = .ok b →
    (clearsProg is).alone s = some (.ok (), { s with acc := b })
  | [], s, b, h => by
    cases h
    rfl
  | i :: is, s, b, h => by
    unfold Accum.clearAll at h
    cases h1 : s.acc.clear i with
    | error x => rw [h1] at h; cases h
    | ok a =>
      rw [h1] at h
      unfold clearsProg
      rw [Prog.alone_andThen _ _ (alone_accStep (x := ()) (b := a) (by simp [h1, Except.map]))]
      exact alone_clears is _ b h

theorem drain_visit [Zero R] (n : Nat) (a : Accum R) :
    a.drain (n + 1) = (a.visit.bind fun r => (r.2.drain n).map fun q => (r.1 :: q.1, q.2)) := by
  conv_lhs => unfold Accum.drain
  unfold Accum.visit
  cases a.head with
  | negSucc k => rfl
  | ofNat i =>
    simp only
    cases a.sums[i]? with
    | none => rfl
    | some x =>
      cases a.next[i]? with
      | none => rfl
      | some nx =>
        simp only [bind, Except.bind, pure, Except.pure]
        cases Accum.drain n ⟨a.sums.set i 0, a.next.set i (-1), nx, a.length⟩ <;> rfl

theorem alone_drain [Zero R] : ∀ (n : Nat) (s : KnnShared R) (l : List (Nat × R)) (b : Accum R),
    s.acc.drain n = .ok (l, b) → (drainProg n).alone s = some (.ok l, { s with acc := b })
  | 0, s, l, b, h => by
    unfold Accum.drain at h
    cases h
    exact alone_accStep rfl
  | n + 1, s, l, b, h => by
    rw [drain_visit] at h
    cases h1 : s.acc.visit with
    | error e => rw [h1] at h; cases h
    | ok r =>
      rw [h1] at h
      cases h2 : r.2.drain n with
      | error e =>
        simp only [Except.bind, h2, Except.map] at h
        cases h
      | ok q =>
        simp only [Except.bind, h2, Except.map] at h
        cases h
        unfold drainProg
        rw [Prog.alone_andThen _ _ (alone_accStep (x := r.1) (b := r.2) h1),
          Prog.alone_andThen _ _ (alone_drain n { s with acc := r.2 } q.1 q.2 h2)]
        rfl

variable [LinearOrder R] [Field R]

theorem keeps_body (H : HeapImpl (R × Nat) pairLt) (sim : SpRows R) (row : List (Nat × R)) (K : Nat) (rm : Bool) (me : Nat) :
    Keeps me (scorerBody H sim row K rm) := by
  unfold scorerBody
  refine Keeps.andThen (fun adds => Keeps.andThen (fun _ => Keeps.andThen (fun _ => Keeps.andThen (fun n =>
    Keeps.andThen (fun calls => keeps_done me _) (keeps_drain me n)) (keeps_accStep me _)) ?_) (keeps_adds me adds)) (keeps_done me _)
  cases rm
  · trivial
  · exact keeps_clears me _

theorem alone_body (H : HeapImpl (R × Nat) pairLt) (sim : SpRows R) (a b : Accum R) (row : List (Nat × R)) (K : Nat) (rm : Bool)
    (out : List (Nat × R)) (lock : Option Nat) (h : scorerRecommend H sim a row K rm = .ok (out, b)) :
    ∃ hp, (scorerBody H sim row K rm).alone ⟨a, lock⟩ = some (.ok hp, ⟨b, lock⟩) ∧ (H.sort hp).map Prod.swap = out := by
  unfold scorerRecommend at h
  cases h1 : productAdds sim row with
  | error e => rw [h1] at h; cases h
  | ok adds =>
    rw [h1] at h
    simp only [bind, Except.bind] at h
    cases h2 : a.addAll adds with
    | error e => rw [h2] at h; cases h
    | ok a1 =>
      rw [h2] at h
      simp only at h
      obtain ⟨a2, r, hp, h3, h4, h5, h6⟩ : ∃ a2 r hp, (if rm then a1.clearAll (row.map Prod.fst) else pure a1) = .ok a2 ∧
          a2.drain a2.length = .ok r ∧ offerAll H K [] (r.1.map Prod.swap) = .ok hp ∧
          ((H.sort hp).map Prod.swap, r.2) = (out, b) := by
        unfold Accum.foreach at h
        cases rm with
        | false =>
          simp only [Bool.false_eq_true, if_false, pure, Except.pure] at h
          cases h4 : a1.drain a1.length with
          | error e => rw [h4] at h; cases h
          | ok r =>
            rw [h4] at h
            cases h5 : offerAll H K [] (r.1.map Prod.swap) with
            | error e => simp only [h5] at h; cases h
            | ok hp => simp only [h5] at h; exact ⟨a1, r, hp, rfl, h4, h5, Except.ok.inj h⟩
        | true =>
          simp only [if_true, pure, Except.pure] at h
          cases h3 : a1.clearAll (row.map Prod.fst) with
          | error e => rw [h3] at h; cases h
          | ok a2 =>
            rw [h3] at h
            simp only at h
            cases h4 : a2.drain a2.length with
            | error e => rw [h4] at h; cases h
            | ok r =>
              rw [h4] at h
              cases h5 : offerAll H K [] (r.1.map Prod.swap) with
              | error e => simp only [h5] at h; cases h
              | ok hp => simp only [h5] at h; exact ⟨a2, r, hp, by simp [h3], h4, h5, Except.ok.inj h⟩
      cases h6
      refine ⟨hp, ?_, rfl⟩
      unfold scorerBody
      rw [Prog.alone_andThen (s' := ⟨a, lock⟩) (a := adds) _ _ (by rw [h1]; rfl),
        Prog.alone_andThen _ _ (alone_adds adds ⟨a, lock⟩ a1 h2),
        Prog.alone_andThen (s' := ⟨a2, lock⟩) (a := ()) _ _ ?_,
        Prog.alone_andThen _ _ (alone_accStep (x := a2.length) (b := a2) rfl),
        Prog.alone_andThen _ _ (alone_drain a2.length ⟨a2, lock⟩ r.1 r.2 h4), h5]
      · rfl
      · cases rm
        · simp only [Bool.false_eq_true, if_false, pure, Except.pure] at h3
          cases h3
          rfl
        · exact alone_clears _ ⟨a1, lock⟩ a2 h3

/-! ## Lock discipline -/

/-- While nobody holds the lock, the accumulator is as new. -/
def KnnRest (n : Nat) (s : KnnShared R) : Prop := s.lock = none → s.acc = Accum.new n

/-- What thread `me` does: only while it holds the lock or takes it, and it leaves a new accumulator when it frees it. -/
def knnGuar (n me : Nat) (s s' : KnnShared R) : Prop :=
  s' = s ∨ (s.lock = none ∨ s.lock = some me) ∧ (s'.lock = some me ∨ s'.lock = none ∧ s'.acc = Accum.new n)

/-- What thread `me` may expect of the others. -/
def knnRely (n me : Nat) (s s' : KnnShared R) : Prop :=
  (s.lock = some me → s' = s) ∧ (s.lock ≠ some me → s'.lock ≠ some me) ∧ (KnnRest n s → KnnRest n s')

theorem knnGuar_rely {n i j : Nat} (h : i ≠ j) {s s' : KnnShared R} (hg : knnGuar n j s s') : knnRely n i s s' := by
  rcases hg with rfl | ⟨h1, h2⟩
  · exact ⟨fun _ => rfl, id, id⟩
  · have hne : s.lock ≠ some i := by
      rcases h1 with e | e <;> rw [e]
      · simp
      · intro he; cases he; exact h rfl
    have hne' : s'.lock ≠ some i := by
      rcases h2 with e | ⟨e, -⟩ <;> rw [e]
      · intro he; cases he; exact h rfl
      · simp
    refine ⟨fun e => absurd e hne, fun _ => hne', fun _ he => ?_⟩
    rcases h2 with e | ⟨-, e⟩
    · rw [e] at he; cases he
    · exact e

/-- Others hold the lock. -/
def knnBlocked (me : Nat) (s : KnnShared R) : Prop := ∃ j, s.lock = some j ∧ j ≠ me

theorem holder_safe {α : Type} (n me : Nat) : ∀ (p : Prog (KnnShared R) α) (s s' : KnnShared R) (a : α), Keeps me p →
    s.lock = some me → p.alone s = some (a, s') → s'.lock = some me ∧
    Safe (knnRely n me) (knnGuar n me) (knnBlocked me) (fun b t => b = a ∧ t = s') p (fun t => t = s)
  | .done b, s, s', a, _, hl, h => by
    unfold Prog.alone at h
    cases h
    refine ⟨hl, ?_, fun t ht => ⟨rfl, ht⟩⟩
    intro t t' ht hr
    subst ht
    exact hr.1 hl
  | .step ready act next, s, s', a, hk, hl, h => by
    obtain ⟨h1, h2, h3⟩ := hk s hl
    unfold Prog.alone at h
    rw [if_pos h1] at h
    obtain ⟨hl', hs⟩ := holder_safe n me (next s) (act s) s' a h3 h2 h
    refine ⟨hl', ?_, ?_, ?_⟩
    · intro t t' ht hr
      subst ht
      exact hr.1 hl
    · intro t ht hf
      subst ht
      rw [h1] at hf
      cases hf
    · intro t ht _
      subst ht
      exact ⟨.inr ⟨.inr hl, .inl h2⟩, fun u => u = act t, rfl, hs⟩

theorem rest_stable (n me : Nat) (P : Prop) :
    Stable (knnRely (R := R) n me) fun s => P ∧ s.lock ≠ some me ∧ KnnRest n s :=
  fun _ _ hs hr => ⟨hs.1, hr.2.1 hs.2.1, hr.2.2 hs.2.2⟩

theorem scorer_safe (H : HeapImpl (R × Nat) pairLt) (sim : SpRows R) (me : Nat) (row : List (Nat × R)) (K : Nat) (rm : Bool)
    (out : List (Nat × R))
    (h : scorerRecommend H sim (Accum.new sim.length) row K rm = .ok (out, Accum.new sim.length)) :
    Safe (knnRely sim.length me) (knnGuar sim.length me) (knnBlocked me)
      (fun r s => r = .ok out ∧ s.lock ≠ some me ∧ KnnRest sim.length s)
      (scorerProg H sim me row K rm) (fun s => s.lock ≠ some me ∧ KnnRest sim.length s) := by
  obtain ⟨hp, e, hout⟩ := alone_body H sim _ _ row K rm out (some me) h
  obtain ⟨hl, hbody⟩ := holder_safe sim.length me _ _ _ _ (keeps_body H sim row K rm me) (by rfl) e
  have hheld : Stable (knnRely sim.length me) fun s : KnnShared R => s = ⟨Accum.new sim.length, some me⟩ := by
    intro t t' ht hr
    subst ht
    exact hr.1 rfl
  have hK : Stable (knnRely sim.length me) fun s : KnnShared R => s.lock ≠ some me ∧ KnnRest sim.length s := by
    intro t t' ht hr
    exact ⟨hr.2.1 ht.1, hr.2.2 ht.2⟩
  unfold scorerProg
  refine Safe.bind (post := fun _ s => s = ⟨Accum.new sim.length, some me⟩) (fun _ => ?_) ?_
  · refine Safe.andThen (errs := fun _ _ => False) (post := fun a s => a = hp ∧ s = ⟨Accum.new sim.length, some me⟩)
      (hbody.weaken ?_) (fun _ _ _ hf => hf.elim) (fun _ _ hf => hf.elim) fun a => ?_
    · rintro r s ⟨rfl, hs⟩
      exact ⟨rfl, hs⟩
    · by_cases ha : a = hp
      · subst ha
        refine Safe.bind (post := fun _ s => s.lock ≠ some me ∧ KnnRest sim.length s) (fun _ => ?_) ?_
        · refine Safe.done hK fun s hs => ⟨by rw [hout], hs⟩
        · refine Safe.write ?_ hK ?_
          · intro t t' ht hr
            exact ⟨ht.1, hheld t t' ht.2 hr⟩
          · rintro s ⟨-, rfl⟩
            exact ⟨.inr ⟨.inr rfl, .inr ⟨rfl, rfl⟩⟩, by simp, fun _ => rfl⟩
      · exact ⟨fun t t' ht => absurd ht.1 ha, fun s hs => absurd hs.1 ha, fun s hs => absurd hs.1 ha⟩
  · refine Safe.await hK hheld ?_ ?_
    · intro s hs hf
      unfold knnBlocked
      cases hl' : s.lock with
      | none => simp [hl'] at hf
      | some j =>
        refine ⟨j, rfl, ?_⟩
        rintro rfl
        exact hs.1 hl'
    · intro s hs hr
      have hnone : s.lock = none := by
        cases hl' : s.lock with
        | none => rfl
        | some j =>
          simp [hl'] at hr
          exact absurd (hr ▸ hl') hs.1
      refine ⟨.inr ⟨.inl hnone, .inl rfl⟩, ?_⟩
      rw [hs.2 hnone]

end Implicit
