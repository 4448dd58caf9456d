import Verif.Props.C72Factors
/-!
# C72 — one thread that updates a factor model while others query it
-/

set_option linter.unusedSectionVars false

namespace Implicit

variable {R : Type} [LinearOrder R] [Field R] {f : Nat}

theorem writer_fitUsers {env : Env f R} {c : Setting f R} (hi : c.touched .item = none)
    (hu : c.touched .user = some fun _ => True) (st : MFState f R) (hst : Coherent env st) (hitem : st.item = c.T .item)
    (ids : List Nat) (rows : SpRows R) :
    Safe (Silent env c) (Proper env c) (fun _ => False)
      (fun r s => r = (partialFitUsers env st ids rows).1 ∧ TableIs env c .user (partialFitUsers env st ids rows).2.user s)
      (partialFitUsersProg env ids rows) (TableIs env c .user st.user) := by
  unfold partialFitUsersProg partialFitUsers
  split_ifs with hl
  · exact Safe.done (tableIs_stable env c _ _) fun s hs => ⟨rfl, hs⟩
  have hrec : (recalculateUser env c.model (.many ids) rows).1 = (recalculateUser env st (.many ids) rows).1 := by
    rw [recalculateUser_fresh hst]
    unfold recalculateUser
    split_ifs
    · rfl
    · show leastSquaresNative env.S (gram (c.T .item)) _ _ (c.T .item) _ = leastSquaresNative env.S (gram st.item) _ _ st.item _
      rw [hitem]
  have hsame := recalculateUser_same env st (.many ids) rows
  have hq := writer_query .user st.user
    (does_recalculateUser (fun _ _ => Silent.proper) (fun _ _ _ h _ => h) (.many ids) rows (env := env) (c := c)
      (rely := Silent env c) (guar := Silent env c))
  cases hr : recalculateUser env st (.many ids) rows with
  | mk r st' =>
    have hst' : st'.user = st.user := by rw [← hsame.1, hr]
    rw [hr] at hrec
    cases r with
    | error e =>
      refine Safe.andThen (errs := fun e' s => e' = e ∧ TableIs env c .user st.user s) (post := fun _ _ => False)
        (hq.weaken ?_) (fun e' s s' hs h => ⟨hs.1, tableIs_stable env c _ _ s s' hs.2 h⟩) ?_
        (fun a => Safe.of_false (fun _ h => h) _)
      · intro r s hs
        rw [hs.1 hi, hrec]
        exact ⟨rfl, hs.2⟩
      · rintro e' s ⟨rfl, hs⟩
        exact ⟨rfl, by simpa [hst'] using hs⟩
    | ok xs =>
      refine Safe.andThen (errs := fun _ _ => False) (post := fun a s => a = xs ∧ TableIs env c .user st.user s)
        (hq.weaken ?_) (fun _ _ _ h => h.elim) (fun _ _ h => h.elim) fun a => ?_
      · intro r s hs
        rw [hs.1 hi, hrec]
        exact ⟨rfl, hs.2⟩
      by_cases ha : a = xs
      swap
      · exact Safe.of_false (fun s hs => ha hs.1) _
      subst ha
      refine Safe.pre (fun s s' hs h => ⟨hs.1, tableIs_stable env c _ _ s s' hs.2 h⟩) (fun s hs => hs.2) ?_
      simp only
      cases hm : pyMax ids with
      | error e =>
        simp only
        rw [hst']
        unfold storeProg
        rw [hm]
        refine Safe.bind (post := fun _ s => TableIs env c .user st.user s) (fun _ => ?_) ?_
        · exact Safe.done (tableIs_stable env c _ _) fun s hs => ⟨rfl, hs⟩
        · exact Safe.read (tableIs_stable env c _ _) (fun _ => tableIs_stable env c _ _)
            (fun s _ hs => ⟨hs, Grows.refl c s⟩) fun s hs => hs
      | ok m =>
        simp only
        rw [hst']
        exact writer_store hu ids a st.user m hm

theorem writer_fitItems {env : Env f R} {c : Setting f R} (hi : c.touched .user = none)
    (hu : c.touched .item = some fun _ => True) (st : MFState f R) (hst : Coherent env st) (huser : st.user = c.T .user)
    (ids : List Nat) (rows : SpRows R) :
    Safe (Silent env c) (Proper env c) (fun _ => False)
      (fun r s => r = (partialFitItems env st ids rows).1 ∧ TableIs env c .item (partialFitItems env st ids rows).2.item s)
      (partialFitItemsProg env ids rows) (TableIs env c .item st.item) := by
  unfold partialFitItemsProg partialFitItems
  split_ifs with hl
  · exact Safe.done (tableIs_stable env c _ _) fun s hs => ⟨rfl, hs⟩
  have hrec : (recalculateItem env c.model (.many ids) rows).1 = (recalculateItem env st (.many ids) rows).1 := by
    rw [recalculateItem_fresh hst]
    unfold recalculateItem
    show leastSquaresNative env.S (gram (c.T .user)) _ _ (c.T .user) _ = leastSquaresNative env.S (gram st.user) _ _ st.user _
    rw [huser]
  have hsame := recalculateItem_same env st (.many ids) rows
  have hq := writer_query .item st.item
    (does_recalculateItem (fun _ _ => Silent.proper) (fun _ _ _ h _ => h) (.many ids) rows (env := env) (c := c)
      (rely := Silent env c) (guar := Silent env c))
  cases hr : recalculateItem env st (.many ids) rows with
  | mk r st' =>
    have hst' : st'.item = st.item := by rw [← hsame.2, hr]
    rw [hr] at hrec
    cases r with
    | error e =>
      refine Safe.andThen (errs := fun e' s => e' = e ∧ TableIs env c .item st.item s) (post := fun _ _ => False)
        (hq.weaken ?_) (fun e' s s' hs h => ⟨hs.1, tableIs_stable env c _ _ s s' hs.2 h⟩) ?_
        (fun a => Safe.of_false (fun _ h => h) _)
      · intro r s hs
        rw [hs.1 hi, hrec]
        exact ⟨rfl, hs.2⟩
      · rintro e' s ⟨rfl, hs⟩
        exact ⟨rfl, by simpa [hst'] using hs⟩
    | ok xs =>
      refine Safe.andThen (errs := fun _ _ => False) (post := fun a s => a = xs ∧ TableIs env c .item st.item s)
        (hq.weaken ?_) (fun _ _ _ h => h.elim) (fun _ _ h => h.elim) fun a => ?_
      · intro r s hs
        rw [hs.1 hi, hrec]
        exact ⟨rfl, hs.2⟩
      by_cases ha : a = xs
      swap
      · exact Safe.of_false (fun s hs => ha hs.1) _
      subst ha
      refine Safe.pre (fun s s' hs h => ⟨hs.1, tableIs_stable env c _ _ s s' hs.2 h⟩) (fun s hs => hs.2) ?_
      simp only
      cases hm : pyMax ids with
      | error e =>
        simp only
        rw [hst']
        unfold storeProg
        rw [hm]
        refine Safe.bind (post := fun _ s => TableIs env c .item st.item s) (fun _ => ?_) ?_
        · exact Safe.done (tableIs_stable env c _ _) fun s hs => ⟨rfl, hs⟩
        · exact Safe.read (tableIs_stable env c _ _) (fun _ => tableIs_stable env c _ _)
            (fun s _ hs => ⟨hs, Grows.refl c s⟩) fun s hs => hs
      | ok m =>
        simp only
        rw [hst']
        exact writer_store hu ids a st.item m hm

/-- The factors of side `d`. -/
def MFState.side (st : MFState f R) : Side → List (Vec f R)
  | .user => st.user
  | .item => st.item

/-- The call is a query or updates side `d`. -/
def ModelCall.MayUpdate (d : Side) : ModelCall f R → Prop
  | .query _ => True
  | .updateUsers _ _ => d = .user
  | .updateItems _ _ => d = .item

/-- The call is a query. -/
def ModelCall.IsQuery : ModelCall f R → Prop
  | .query _ => True
  | _ => False

/-- What an update returns when it is made on the model `st`. -/
def ModelCall.outcome (env : Env f R) (st : MFState f R) : ModelCall f R → Option (Except Err Unit)
  | .query _ => none
  | .updateUsers ids rows => some (partialFitUsers env st ids rows).1
  | .updateItems ids rows => some (partialFitItems env st ids rows).1

/-- The results of the updates among `calls`, made one after the other. -/
def Outcomes (env : Env f R) : MFState f R → List (ModelCall f R) → List (Except Err (Option (Result f R))) → Prop
  | _, [], rs => rs = []
  | st, c :: cs, rs => ∃ r rs', rs = r :: rs' ∧ (∀ o, c.outcome env st = some o → r = o.map fun _ => none) ∧
      Outcomes env (runOp env st c.op) cs rs'

theorem Outcomes.get {env : Env f R} : ∀ {calls : List (ModelCall f R)} {st : MFState f R}
    {rs : List (Except Err (Option (Result f R)))}, Outcomes env st calls rs → rs.length = calls.length ∧
      ∀ (k : Nat) (c : ModelCall f R) (o : Except Err Unit), calls[k]? = some c → c.outcome env (runOps env st ((calls.take k).map ModelCall.op)) = some o →
        rs[k]? = some (o.map fun _ => none)
  | [], st, rs, h => by
    have h' : rs = [] := h
    subst h'
    exact ⟨rfl, fun k c o hk => by simp at hk⟩
  | c :: cs, st, rs, h => by
    obtain ⟨r, rs', rfl, hr, h'⟩ := h
    obtain ⟨hl, hk⟩ := Outcomes.get h'
    refine ⟨by simp [hl], fun k c' o hc ho => ?_⟩
    cases k with
    | zero =>
      simp only [List.getElem?_cons_zero, Option.some.injEq] at hc
      subst hc
      simp only [List.getElem?_cons_zero, hr o ho]
    | succ k => exact hk k c' o (by simpa using hc) ho

theorem writer_call {env : Env f R} {c : Setting f R} {d : Side} (ho : c.touched d.other = none)
    (hu : c.touched d = some fun _ => True) (st : MFState f R) (hst : Coherent env st) (hother : st.side d.other = c.T d.other)
    (call : ModelCall f R) (hc : call.MayUpdate d) :
    Safe (Silent env c) (Proper env c) (fun _ => False)
      (fun r s => (∀ o, call.outcome env st = some o → r = o.map fun _ => none) ∧
        TableIs env c d ((runOp env st call.op).side d) s)
      (call.prog env) (TableIs env c d (st.side d)) := by
  cases call with
  | query q =>
    have hd := does_map (rely := Silent env c) (guar := Silent env c) (fun _ _ => Silent.proper) (fun _ _ _ h _ => h) some
      (does_query (rely := Silent env c) (guar := Silent env c) (fun _ _ => Silent.proper) (fun _ _ _ h _ => h)
        (fun _ _ => Silent.proper) q)
    refine (writer_query d (st.side d) hd).weaken fun r s hs => ⟨fun o h => (by cases h), ?_⟩
    have := runQuery_same env st q
    have e : (runOp env st (ModelCall.query q).op).side d = st.side d := by
      cases d
      · exact this.1
      · exact this.2
    rw [e]
    exact hs.2
  | updateUsers ids rows =>
    cases hc
    refine Safe.bind (post := fun r s => r = (partialFitUsers env st ids rows).1 ∧
      TableIs env c .user (partialFitUsers env st ids rows).2.user s) (fun r => ?_)
      (writer_fitUsers ho hu st hst hother ids rows)
    cases r with
    | error e =>
      refine Safe.done (fun s s' hs h => ⟨hs.1, tableIs_stable env c _ _ s s' hs.2 h⟩) fun s hs => ⟨fun o h => ?_, hs.2⟩
      cases h
      rw [← hs.1]; rfl
    | ok a =>
      refine Safe.done (fun s s' hs h => ⟨hs.1, tableIs_stable env c _ _ s s' hs.2 h⟩) fun s hs => ⟨fun o h => ?_, hs.2⟩
      cases h
      rw [← hs.1]; rfl
  | updateItems ids rows =>
    cases hc
    refine Safe.bind (post := fun r s => r = (partialFitItems env st ids rows).1 ∧
      TableIs env c .item (partialFitItems env st ids rows).2.item s) (fun r => ?_)
      (writer_fitItems ho hu st hst hother ids rows)
    cases r with
    | error e =>
      refine Safe.done (fun s s' hs h => ⟨hs.1, tableIs_stable env c _ _ s s' hs.2 h⟩) fun s hs => ⟨fun o h => ?_, hs.2⟩
      cases h
      rw [← hs.1]; rfl
    | ok a =>
      refine Safe.done (fun s s' hs h => ⟨hs.1, tableIs_stable env c _ _ s s' hs.2 h⟩) fun s hs => ⟨fun o h => ?_, hs.2⟩
      cases h
      rw [← hs.1]; rfl

theorem fitUsers_keeps_items (env : Env f R) (st : MFState f R) (ids : List Nat) (rows : SpRows R) :
    (partialFitUsers env st ids rows).2.item = st.item := by
  have hsame := (recalculateUser_same env st (.many ids) rows).2
  unfold partialFitUsers
  split_ifs
  · rfl
  cases hr : recalculateUser env st (.many ids) rows with
  | mk r st' =>
    rw [hr] at hsame
    cases r with
    | error e => exact hsame
    | ok xs =>
      simp only
      cases pyMax ids with
      | error e => exact hsame
      | ok m => exact hsame

theorem fitItems_keeps_users (env : Env f R) (st : MFState f R) (ids : List Nat) (rows : SpRows R) :
    (partialFitItems env st ids rows).2.user = st.user := by
  have hsame := (recalculateItem_same env st (.many ids) rows).1
  unfold partialFitItems
  split_ifs
  · rfl
  cases hr : recalculateItem env st (.many ids) rows with
  | mk r st' =>
    rw [hr] at hsame
    cases r with
    | error e => exact hsame
    | ok xs =>
      simp only
      cases pyMax ids with
      | error e => exact hsame
      | ok m => exact hsame

theorem runOp_other (env : Env f R) (st : MFState f R) (d : Side) (call : ModelCall f R) (hc : call.MayUpdate d) :
    (runOp env st call.op).side d.other = st.side d.other := by
  cases call with
  | query q =>
    have := runQuery_same env st q
    cases d
    · exact this.2
    · exact this.1
  | updateUsers ids rows => cases hc; exact fitUsers_keeps_items env st ids rows
  | updateItems ids rows => cases hc; exact fitItems_keeps_users env st ids rows

theorem runOp_call_coherent {env : Env f R} {st : MFState f R} (h : Coherent env st) (call : ModelCall f R) :
    Coherent env (runOp env st call.op) := by
  cases call with
  | query q => exact runQuery_coherent h q
  | updateUsers ids rows => exact partialFitUsers_coherent h ids rows
  | updateItems ids rows => exact partialFitItems_coherent h ids rows

theorem writer_calls {env : Env f R} {c : Setting f R} {d : Side} (ho : c.touched d.other = none)
    (hu : c.touched d = some fun _ => True) : ∀ (calls : List (ModelCall f R)) (st : MFState f R), Coherent env st →
    st.side d.other = c.T d.other → (∀ call ∈ calls, call.MayUpdate d) →
    Safe (Silent env c) (Proper env c) (fun _ => False)
      (fun rs s => Outcomes env st calls rs ∧ TableIs env c d ((runOps env st (calls.map ModelCall.op)).side d) s)
      (Prog.sequence (calls.map (ModelCall.prog env))) (TableIs env c d (st.side d))
  | [], st, _, _, _ => Safe.done (tableIs_stable env c _ _) fun s hs => ⟨rfl, hs⟩
  | call :: calls, st, hst, hother, hall => by
    have hc := hall call (by simp)
    refine Safe.bind (post := fun r s => (∀ o, call.outcome env st = some o → r = o.map fun _ => none) ∧
        TableIs env c d ((runOp env st call.op).side d) s) (fun r => ?_) (writer_call ho hu st hst hother call hc)
    by_cases hr : ∀ o, call.outcome env st = some o → r = o.map fun _ => none
    swap
    · exact Safe.of_false (fun s hs => hr hs.1) _
    refine Safe.pre (fun s s' hs h => ⟨hs.1, tableIs_stable env c _ _ s s' hs.2 h⟩) (fun s hs => hs.2) ?_
    have ih := writer_calls ho hu calls (runOp env st call.op) (runOp_call_coherent hst call)
      ((runOp_other env st d call hc).trans hother) fun x hx => hall x (by simp [hx])
    refine Safe.bind (fun rs => ?_) ih
    exact Safe.done (fun s s' hs h => ⟨hs.1, tableIs_stable env c _ _ s s' hs.2 h⟩)
      fun s hs => ⟨⟨r, rs, rfl, hr, hs.1⟩, hs.2⟩

/-- Only the rows of side `d` may be updated. -/
def onlySide (d : Side) : Side → Option (Nat → Prop) := fun d' => if d' = d then some fun _ => True else none

theorem oneWriter_safe (env : Env f R) (st : MFState f R) (hst : Coherent env st) (d : Side)
    (threads : List (List (ModelCall f R))) (w : Nat) (calls : List (ModelCall f R)) (hw : threads[w]? = some calls)
    (hcalls : ∀ call ∈ calls, call.MayUpdate d)
    (hothers : ∀ i calls', i ≠ w → threads[i]? = some calls' → ∀ call ∈ calls', call.IsQuery) :
    AllSafe (n := threads.length)
      (fun i => if i.val = w then Silent env (Setting.of st (onlySide d)) else Proper env (Setting.of st (onlySide d)))
      (fun i => if i.val = w then Proper env (Setting.of st (onlySide d)) else Silent env (Setting.of st (onlySide d)))
      (fun _ _ => False)
      (fun i rs s => i.val = w → Outcomes env st calls rs ∧
        TableIs env (Setting.of st (onlySide d)) d ((runOps env st (calls.map ModelCall.op)).side d) s)
      (modelProcess env st threads) := by
  have hother : (Setting.of st (onlySide d)).touched d.other = none := by cases d <;> rfl
  have hd : (Setting.of st (onlySide d)).touched d = some fun _ => True := by cases d <;> rfl
  have hside : ∀ d', st.side d' = (Setting.of st (onlySide d)).T d' := fun d' => by cases d' <;> rfl
  refine ⟨by simp [modelProcess], fun i p hp => ?_⟩
  have hi := List.getElem?_eq_getElem i.isLt
  have hp' : p = Prog.sequence ((threads[i.val]).map (ModelCall.prog env)) := by
    simpa [modelProcess, hi] using hp.symm
  rw [hp']
  by_cases hiw : i.val = w
  · have hcs : threads[i.val] = calls := by
      have h := hw
      rw [← hiw, hi] at h
      exact Option.some.inj h
    refine ⟨TableIs env (Setting.of st (onlySide d)) d (st.side d), ⟨sound_start hst _, ?_⟩, ?_⟩
    · cases d <;> rfl
    · simp only [if_pos hiw]
      rw [hcs]
      exact (writer_calls hother hd calls st hst (hside _) hcalls).weaken fun rs s hs _ => hs
  · refine ⟨Sound env (Setting.of st (onlySide d)), sound_start hst _, ?_⟩
    simp only [if_neg hiw]
    have hK : Stable (Proper env (Setting.of st (onlySide d))) (Sound env (Setting.of st (onlySide d))) :=
      fun s s' hs hr => (hr hs).1
    have h := Safe.sequence (guar := Silent env (Setting.of st (onlySide d))) (blocked := fun _ => False) hK
      ((threads[i.val]).map fun c => (c.prog env, fun _ => True)) (by
      intro p hp
      obtain ⟨c, hc, rfl⟩ := List.mem_map.mp hp
      have hq := hothers i.val _ hiw hi c hc
      cases c with
      | query q =>
        have := does_map (rely := Proper env (Setting.of st (onlySide d))) (guar := Silent env (Setting.of st (onlySide d)))
          (fun _ _ h => h) (fun _ _ _ h _ => h) some
          (does_query (rely := Proper env (Setting.of st (onlySide d))) (guar := Silent env (Setting.of st (onlySide d)))
            (fun _ _ h => h) (fun _ _ _ h _ => h) (fun _ _ => Silent.proper) q)
        refine Safe.weaken (fun a s hs => ⟨trivial, hs.1⟩) (Safe.pre hK ?_ this)
        exact fun s hs => ⟨hs, trivial⟩
      | updateUsers _ _ => exact hq.elim
      | updateItems _ _ => exact hq.elim)
    rw [List.map_map] at h
    exact h.weaken fun rs s hs hc => absurd hc hiw

theorem oneWriter_others (env : Env f R) (c : Setting f R) (w m : Nat) (i j : Fin m) (s s' : Shared f R) (hij : i ≠ j)
    (h : (fun i : Fin m => if i.val = w then Proper env c else Silent env c) j s s') :
    (fun i : Fin m => if i.val = w then Silent env c else Proper env c) i s s' := by
  simp only at h ⊢
  split_ifs at h ⊢ with h1 h2 h3
  · exact absurd (Fin.ext (h2.trans h1.symm)).symm hij
  · exact h
  · exact h
  · exact h.proper

/-- **C72** (one thread updates).  Thread `w` makes queries and updates of one side, all other threads make queries, under any
schedule.  When `w` is finished, its updates have returned what they return without the other threads, and the factors are the ones
that its calls leave without them. -/
theorem C72_one_writer (env : Env f R) (st : MFState f R) (hst : Coherent env st) (d : Side)
    (threads : List (List (ModelCall f R))) (w : Nat) (calls : List (ModelCall f R)) (hw : threads[w]? = some calls)
    (hcalls : ∀ call ∈ calls, call.MayUpdate d)
    (hothers : ∀ i calls', i ≠ w → threads[i]? = some calls' → ∀ call ∈ calls', call.IsQuery)
    (schedule : List Nat) (results : List (Except Err (Option (Result f R))))
    (hr : ((modelProcess env st threads).run schedule).result w = some results) :
    let state := ((modelProcess env st threads).run schedule).state
    (∀ d', state.tab d' (state.cur d') = (runOps env st (calls.map ModelCall.op)).side d') ∧
      results.length = calls.length ∧
      ∀ (k : Nat) (c : ModelCall f R) (o : Except Err Unit), calls[k]? = some c → c.outcome env (runOps env st ((calls.take k).map ModelCall.op)) = some o →
        results[k]? = some (o.map fun _ => none) := by
  intro state
  have hlt := (List.getElem?_eq_some_iff.mp hw).1
  have h := (oneWriter_safe env st hst d threads w calls hw hcalls hothers).run (oneWriter_others env _ w _) schedule
  obtain ⟨h1, h2⟩ := h.result ⟨w, hlt⟩ results hr rfl
  refine ⟨fun d' => ?_, h1.get⟩
  by_cases hd : d' = d
  · rw [hd]; exact h2.2
  · have hd' : d' = d.other := by cases d <;> cases d' <;> first | rfl | exact absurd rfl hd
    subst hd'
    have hrest : ∀ (calls : List (ModelCall f R)) (st : MFState f R), (∀ call ∈ calls, call.MayUpdate d) →
        (runOps env st (calls.map ModelCall.op)).side d.other = st.side d.other := by
      intro calls
      induction calls with
      | nil => intro st _; rfl
      | cons call calls ih =>
        intro st hall
        exact (ih (runOp env st call.op) fun x hx => hall x (by simp [hx])).trans (runOp_other env st d call (hall call (by simp)))
    rw [hrest calls st hcalls]
    have hcur := h2.1.cur d.other
    have hmem : state.tab d.other (state.cur d.other) ∈ state.tabs d.other := by
      unfold Shared.tab
      rw [List.getD_eq_getElem?_getD, List.getElem?_eq_getElem hcur]
      exact List.getElem_mem hcur
    have := h2.1.tabs d.other _ hmem
    have ht : (Setting.of st (onlySide d)).touched d.other = none := by cases d <;> rfl
    unfold Setting.Agrees at this
    rw [ht] at this
    rw [this]
    cases d <;> rfl

end Implicit
