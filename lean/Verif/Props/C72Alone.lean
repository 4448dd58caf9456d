import Verif.Props.C72Writer
import Verif.Props.C72Gpu
import Verif.Props.C72Races
import Verif.Lemmas.Locked
/-!
# C72 — one thread, and threads that take a lock of the application around their calls
-/

set_option linter.unusedSectionVars false

namespace Implicit

variable {R : Type} [LinearOrder R] [Field R] {f : Nat}

/-- The model that the attributes describe: every attribute is the array it names. -/
def Shared.view (s : Shared f R) : MFState f R where
  user := s.tab .user (s.cur .user)
  item := s.tab .item (s.cur .item)
  userNorms := (s.norms .user).map (s.array .user)
  itemNorms := (s.norms .item).map (s.array .item)
  YtY := s.gram .item
  XtX := s.gram .user

/-- The attributes name arrays that exist. -/
structure Shared.Valid (s : Shared f R) : Prop where
  cur : ∀ d, s.cur d < (s.tabs d).length
  norms : ∀ d p, s.norms d = some p → p < (s.arrays d).length

section alone

variable {S α β : Type}

theorem alone_bind : ∀ (p : Prog S α) (k : α → Prog S β) (s : S),
    (p.bind k).alone s = (p.alone s).bind fun r => (k r.1).alone r.2
  | .done a, k, s => rfl
  | .step ready act next, k, s => by
    simp only [Prog.bind, Prog.alone]
    split_ifs with h
    · exact alone_bind (next s) k (act s)
    · rfl

theorem alone_read (g : S → α) (s : S) : (Prog.read g).alone s = some (g s, s) := rfl

theorem alone_write (u : S → S) (s : S) : (Prog.write u).alone s = some ((), u s) := rfl

theorem alone_atomic (g : S → S × α) (s : S) : (Prog.atomic g).alone s = some ((g s).2, (g s).1) := rfl

theorem alone_done (a : α) (s : S) : (Prog.done a : Prog S α).alone s = some (a, s) := rfl

theorem alone_andThen (p : Prog S (Except Err α)) (k : α → Prog S (Except Err β)) (s : S) :
    (p.andThen k).alone s = (p.alone s).bind fun r => match r.1 with
      | .error e => some (.error e, r.2)
      | .ok a => (k a).alone r.2 := by
  unfold Prog.andThen
  rw [alone_bind]
  congr 1
  funext r
  obtain ⟨r, s'⟩ := r
  cases r <;> rfl

end alone

/-- The state `s` with the factors, norms and Gram matrices of a model, up to where the arrays are kept. -/
def Shared.Is (s : Shared f R) (st : MFState f R) : Prop := s.Valid ∧ s.view = st

/-- The call, run alone on a model, gives the value and the model. -/
def RunsTo {α : Type} (p : Prog (Shared f R) α) (st : MFState f R) (a : α) (st' : MFState f R) : Prop :=
  ∀ s, s.Is st → ∃ s', p.alone s = some (a, s') ∧ s'.Is st'

theorem RunsTo.bind {α β : Type} {p : Prog (Shared f R) α} {k : α → Prog (Shared f R) β} {st st' st'' : MFState f R} {a : α} {b : β}
    (hp : RunsTo p st a st') (hk : RunsTo (k a) st' b st'') : RunsTo (p.bind k) st b st'' := by
  intro s hs
  obtain ⟨s', h, hs'⟩ := hp s hs
  obtain ⟨s'', h', hs''⟩ := hk s' hs'
  exact ⟨s'', by rw [alone_bind, h]; exact h', hs''⟩

theorem RunsTo.andThen {α β : Type} {p : Thread f R α} {k : α → Thread f R β} {st st' st'' : MFState f R} {a : α}
    {b : Except Err β} (hp : RunsTo p st (.ok a) st') (hk : RunsTo (k a) st' b st'') : RunsTo (p.andThen k) st b st'' :=
  RunsTo.bind hp hk

theorem RunsTo.andThen_error {α β : Type} {p : Thread f R α} {k : α → Thread f R β} {st st' : MFState f R} {e : Err}
    (hp : RunsTo p st (.error e) st') : RunsTo (p.andThen k) st (.error e) st' :=
  RunsTo.bind hp fun s hs => ⟨s, rfl, hs⟩

theorem RunsTo.done {α : Type} (a : α) (st : MFState f R) : RunsTo (.done a) st a st := fun s hs => ⟨s, rfl, hs⟩

/-- What a thread keeps in a variable: numbers of arrays. -/
theorem runs_table (d : Side) (st : MFState f R) : RunsTo (tableProg d) st (st.side d) st := by
  rintro s ⟨hv, rfl⟩
  refine ⟨s, ?_, hv, rfl⟩
  cases d <;> rfl

theorem MFState.ext' {a b : MFState f R} (h1 : a.user = b.user) (h2 : a.item = b.item) (h3 : a.userNorms = b.userNorms)
    (h4 : a.itemNorms = b.itemNorms) (h5 : a.YtY = b.YtY) (h6 : a.XtX = b.XtX) : a = b := by
  cases a; cases b
  simp only at h1 h2 h3 h4 h5 h6
  subst h1 h2 h3 h4 h5 h6
  rfl

theorem runs_YtY (st : MFState f R) : RunsTo (gramProg .item) st (.ok (getYtY st).1) (getYtY st).2 := by
  rintro s ⟨hv, rfl⟩
  unfold gramProg getYtY
  rw [alone_bind, alone_read]
  show ∃ s', Prog.alone _ s = _ ∧ _
  have hg : s.view.YtY = s.gram .item := rfl
  rw [hg]
  cases h : s.gram .item with
  | some G =>
    simp only [alone_read, h, notNone]
    exact ⟨s, rfl, hv, rfl⟩
  | none =>
    simp only [alone_bind, alone_read, alone_write, Option.bind_some, Function.update_self, notNone]
    exact ⟨_, rfl, ⟨hv.cur, hv.norms⟩, rfl⟩

theorem runs_XtX (st : MFState f R) : RunsTo (gramProg .user) st (.ok (getXtX st).1) (getXtX st).2 := by
  rintro s ⟨hv, rfl⟩
  unfold gramProg getXtX
  rw [alone_bind, alone_read]
  show ∃ s', Prog.alone _ s = _ ∧ _
  have hg : s.view.XtX = s.gram .user := rfl
  rw [hg]
  cases h : s.gram .user with
  | some G =>
    simp only [alone_read, h, notNone]
    exact ⟨s, rfl, hv, rfl⟩
  | none =>
    simp only [alone_bind, alone_read, alone_write, Option.bind_some, Function.update_self, notNone]
    exact ⟨_, rfl, ⟨hv.cur, hv.norms⟩, rfl⟩

/-- `user_norms` or `item_norms` of the sequential model. -/
def getNorms (env : Env f R) (st : MFState f R) : Side → List R × MFState f R
  | .user => getUserNorms env st
  | .item => getItemNorms env st

theorem norms_alone (env : Env f R) (d : Side) {s : Shared f R} (hv : s.Valid) :
    ∃ n s', (normsProg env d).alone s = some (.ok n, s') ∧ s'.Is (getNorms env s.view d).2 ∧
      s'.array d n = (getNorms env s.view d).1 ∧ s'.tabs = s.tabs ∧ s'.cur = s.cur := by
  unfold normsProg
  rw [alone_bind, alone_read]
  show ∃ n s', Prog.alone _ s = _ ∧ _
  cases h : s.norms d with
  | some p =>
    simp only [alone_read, h, notNone]
    refine ⟨p, s, rfl, ?_, ?_, rfl, rfl⟩
    · have : (getNorms env s.view d).2 = s.view := by
        cases d
        · unfold getNorms getUserNorms; have : s.view.userNorms = some (s.array .user p) := by unfold Shared.view; rw [h]; rfl
          rw [this]
        · unfold getNorms getItemNorms; have : s.view.itemNorms = some (s.array .item p) := by unfold Shared.view; rw [h]; rfl
          rw [this]
      rw [this]
      exact ⟨hv, rfl⟩
    · cases d
      · unfold getNorms getUserNorms; have : s.view.userNorms = some (s.array .user p) := by unfold Shared.view; rw [h]; rfl
        rw [this]
      · unfold getNorms getItemNorms; have : s.view.itemNorms = some (s.array .item p) := by unfold Shared.view; rw [h]; rfl
        rw [this]
  | none =>
    simp only [alone_bind, alone_andThen, fixNorms, alone_read, alone_write, Option.bind_some, Shared.publish,
      Function.update_self, notNone, Option.map_some, alone_atomic, Shared.array, List.getD_eq_getElem?_getD]
    have hlast : ∀ a : List R, ((s.arrays d ++ [a])[(s.arrays d).length]?).getD [] = a := by intro a; simp
    simp only [hlast, List.length_map, if_true, Shared.setArray, Function.update_self]
    have hset : ∀ a b : List R, (s.arrays d ++ [a]).set (s.arrays d).length b = s.arrays d ++ [b] := by intro a b; simp
    refine ⟨_, _, rfl, ⟨⟨hv.cur, fun d' q hq => ?_⟩, ?_⟩, ?_, rfl, rfl⟩
    · by_cases hd : d' = d
      · subst hd
        simp only [Function.update_self, Option.some.injEq] at hq
        simp [← hq]
      · simp only [Function.update_of_ne hd] at hq ⊢
        exact hv.norms d' q hq
    · rw [hset, patch_raw]
      cases d
      · have hn : s.view.userNorms = none := by unfold Shared.view; rw [h]; rfl
        unfold getNorms getUserNorms
        rw [hn]
        refine MFState.ext' rfl rfl ?_ ?_ rfl rfl
        · simp [Shared.view, Shared.array]
        · simp [Shared.view, Shared.array]
          rfl
      · have hn : s.view.itemNorms = none := by unfold Shared.view; rw [h]; rfl
        unfold getNorms getItemNorms
        rw [hn]
        refine MFState.ext' rfl rfl ?_ ?_ rfl rfl
        · simp [Shared.view, Shared.array]
          rfl
        · simp [Shared.view, Shared.array]
    · rw [hset, patch_raw]
      cases d
      · have hn : s.view.userNorms = none := by unfold Shared.view; rw [h]; rfl
        unfold getNorms getUserNorms
        rw [hn]
        simp [Shared.view]
      · have hn : s.view.itemNorms = none := by unfold Shared.view; rw [h]; rfl
        unfold getNorms getItemNorms
        rw [hn]
        simp [Shared.view]

theorem runs_recalculateUser (env : Env f R) (st : MFState f R) (ids : Ids) (rows : SpRows R) :
    RunsTo (recalculateUserProg env ids rows) st (recalculateUser env st ids rows).1 (recalculateUser env st ids rows).2 := by
  unfold recalculateUserProg
  split_ifs with h
  · have : recalculateUser env st ids rows = (.error .valueError, st) := by unfold recalculateUser; rw [if_pos h]
    rw [this]
    exact RunsTo.done _ _
  · have e : recalculateUser env st ids rows = ((recalculateUser env (seen [] (getYtY st).2.item (some (getYtY st).1) none) ids rows).1,
        (getYtY st).2) := by
      unfold recalculateUser
      rw [if_neg h, if_neg h]
      rfl
    rw [e]
    exact RunsTo.andThen (runs_YtY st) (RunsTo.bind (runs_table .item _) (RunsTo.done _ _))

theorem runs_recalculateItem (env : Env f R) (st : MFState f R) (ids : Ids) (rows : SpRows R) :
    RunsTo (recalculateItemProg env ids rows) st (recalculateItem env st ids rows).1 (recalculateItem env st ids rows).2 := by
  unfold recalculateItemProg
  have e : recalculateItem env st ids rows = ((recalculateItem env (seen (getXtX st).2.user [] none (some (getXtX st).1)) ids rows).1,
      (getXtX st).2) := rfl
  rw [e]
  exact RunsTo.andThen (runs_XtX st) (RunsTo.bind (runs_table .user _) (RunsTo.done _ _))

theorem runs_recommend (env : Env f R) (st : MFState f R) (ids : Ids) (userItems : Option (SpRows R)) (N : Nat) (fl : Bool)
    (fi : Option PyFilter) (rc : Bool) (items : Option (List Int)) :
    RunsTo (recommendProg env ids userItems N fl fi rc items) st
      (recommend env.H env.neginf ⟨st.user, st.item⟩ (fun rows => (recalculateUser env st ids rows).1) ids userItems N fl fi rc items)
      (if rc && (checkUserItems ids userItems (fl || rc)).isOkB then (getYtY st).2 else st) := by
  unfold recommendProg
  cases hc : checkUserItems ids userItems (fl || rc) with
  | error e =>
    have : recommend env.H env.neginf ⟨st.user, st.item⟩ (fun rows => (recalculateUser env st ids rows).1) ids userItems N fl fi rc
        items = .error e := by
      unfold recommend
      rw [hc]
      rfl
    rw [this]
    simp only [Except.isOkB, Bool.and_false, Bool.false_eq_true, if_false]
    exact RunsTo.done _ _
  | ok u =>
    simp only [Except.isOkB, Bool.and_true]
    cases rc with
    | true =>
      simp only [if_true]
      obtain ⟨rows, rfl⟩ : ∃ rows, userItems = some rows := by
        cases userItems with
        | none => simp [checkUserItems] at hc
        | some rows => exact ⟨rows, rfl⟩
      have hlen : rows.length = ids.count := by
        by_contra hne
        simp [checkUserItems, hne] at hc
      have hst : (recalculateUser env st ids rows).2 = (getYtY st).2 := by
        unfold recalculateUser
        rw [if_neg (by simpa using hlen)]
      have hr := runs_recalculateUser env st ids rows
      rw [hst] at hr
      cases hx : (recalculateUser env st ids rows).1 with
      | error e =>
        have : recommend env.H env.neginf ⟨st.user, st.item⟩ (fun rows => (recalculateUser env st ids rows).1) ids (some rows) N fl fi
            true items = .error e := by
          unfold recommend userFactor
          simp only [hc, if_true, hx]
          rfl
        rw [this]
        rw [hx] at hr
        exact RunsTo.andThen_error hr
      | ok xs =>
        rw [hx] at hr
        refine RunsTo.andThen hr (RunsTo.bind (runs_table .item _) ?_)
        have : recommend env.H env.neginf ⟨st.user, st.item⟩ (fun rows => (recalculateUser env st ids rows).1) ids (some rows) N fl fi
            true items = recommend env.H env.neginf ⟨[], (getYtY st).2.side .item⟩ (fun _ => .ok xs) ids (some rows) N fl fi true items := by
          have hi : (getYtY st).2.side .item = st.item := by unfold getYtY; cases st.YtY <;> rfl
          rw [hi]
          unfold recommend userFactor
          simp only [hc, if_true, hx]
          rfl
        rw [this]
        exact RunsTo.done _ _
    | false =>
      simp only [Bool.false_eq_true, if_false]
      rintro s ⟨hv, rfl⟩
      simp only [alone_bind, alone_read, Option.bind_some]
      have hX : s.tab .user (s.cur .user) = s.view.user := rfl
      rw [hX]
      cases hg : gather s.view.user ids.toList with
      | error e =>
        refine ⟨s, ?_, hv, rfl⟩
        have : recommend env.H env.neginf ⟨s.view.user, s.view.item⟩ (fun rows => (recalculateUser env s.view ids rows).1) ids userItems N
            fl fi false items = .error e := by
          unfold recommend userFactor
          simp only [hc, Bool.false_eq_true, if_false, hg]
          rfl
        rw [this]
        rfl
      | ok xs =>
        refine ⟨s, ?_, hv, rfl⟩
        cases ids <;> rfl

theorem getNorms_same (env : Env f R) (st : MFState f R) (d : Side) :
    (getNorms env st d).2.side d = st.side d := by
  cases d
  · show (getUserNorms env st).2.user = st.user
    unfold getUserNorms
    cases st.userNorms <;> rfl
  · show (getItemNorms env st).2.item = st.item
    unfold getItemNorms
    cases st.itemNorms <;> rfl

theorem runs_similarUsers (env : Env f R) (st : MFState f R) (ids : Ids) (N : Nat) (fi : Option PyFilter) (items : Option (List Int)) :
    RunsTo (similarUsersProg env ids N fi items) st
      (similar env.H env.neginf (getUserNorms env st).2.user (getUserNorms env st).1 ids N fi items) (getUserNorms env st).2 := by
  rintro s ⟨hv, rfl⟩
  obtain ⟨n, s', h, hs', hn, ht, hc⟩ := norms_alone env .user hv
  refine ⟨s', ?_, hs'⟩
  have hu : (getUserNorms env s.view).2.user = s.view.user := getNorms_same env s.view .user
  have hn' : s'.array .user n = (getUserNorms env s.view).1 := hn
  have htab : s'.tab .user (s.cur .user) = s.view.user := by unfold Shared.tab; rw [ht]; rfl
  rw [hu]
  unfold similarUsersProg similarEnd
  simp only [alone_bind, alone_andThen, alone_read, Option.bind_some, h, hn', htab]
  unfold similar
  cases hg : gather (getUserNorms env s.view).1 ids.toList with
  | error e =>
    cases hg' : gather s.view.user ids.toList with
    | error e' => rw [gather_err hg, gather_err hg']; rfl
    | ok xs => simp only [bind, Except.bind, hg]
  | ok qn =>
    cases hg' : gather s.view.user ids.toList with
    | error e' => rfl
    | ok xs => simp only [bind, Except.bind, hg]; rfl

theorem runs_similarItems (env : Env f R) (st : MFState f R) (ids : Ids) (N : Nat) (fi : Option PyFilter) (items : Option (List Int)) :
    RunsTo (similarItemsProg env ids N fi items) st
      (if (gather st.item ids.toList).isOkB then similar env.H env.neginf (getItemNorms env st).2.item (getItemNorms env st).1 ids N fi items
        else .error .indexError)
      (if (gather st.item ids.toList).isOkB then (getItemNorms env st).2 else st) := by
  rintro s ⟨hv, rfl⟩
  have hX : s.tab .item (s.cur .item) = s.view.item := rfl
  cases hg : gather s.view.item ids.toList with
  | error e =>
    refine ⟨s, ?_, hv, rfl⟩
    unfold similarItemsProg
    simp only [alone_bind, alone_andThen, alone_read, Option.bind_some, hX, hg, Except.isOkB, Bool.false_eq_true, if_false]
    rw [gather_err hg]
  | ok xs =>
    obtain ⟨n, s', h, hs', hn, ht, hc⟩ := norms_alone env .item hv
    refine ⟨s', ?_, hs'⟩
    have hu : (getItemNorms env s.view).2.item = s.view.item := getNorms_same env s.view .item
    have hn' : s'.array .item n = (getItemNorms env s.view).1 := hn
    have htab : s'.tab .item (s.cur .item) = s.view.item := by unfold Shared.tab; rw [ht]; rfl
    simp only [Except.isOkB, if_true]
    rw [hu]
    unfold similarItemsProg
    simp only [alone_bind, alone_andThen, alone_read, Option.bind_some, h, hX, hg]
    unfold similar
    cases ids with
    | one i =>
      simp only [alone_bind, alone_andThen, alone_read, Option.bind_some, hn', htab, hg]
      cases hgn : gather (getItemNorms env s.view).1 (Ids.one i).toList with
      | error e => simp only [bind, Except.bind]
      | ok qn => simp only [bind, Except.bind]; rfl
    | many is =>
      unfold similarEnd
      simp only [alone_bind, alone_andThen, alone_read, Option.bind_some, hn', htab]
      cases hgn : gather (getItemNorms env s.view).1 (Ids.many is).toList with
      | error e => simp only [bind, Except.bind, hg]
      | ok qn => simp only [bind, Except.bind, hg]; rfl

theorem runs_similarItemsRecalc (env : Env f R) (st : MFState f R) (ids : Ids) (rows : SpRows R) (N : Nat) (fi : Option PyFilter)
    (items : Option (List Int)) :
    RunsTo (similarItemsRecalcProg env ids rows N fi items) st
      (match recalculateItem env st ids rows with
        | (.error e, _) => .error e
        | (.ok query, st') => similarRecalc env.H env.neginf env.norm env.eps (getItemNorms env st').2.item (getItemNorms env st').1
            (fun _ => .ok query) rows ids N fi items)
      (match recalculateItem env st ids rows with
        | (.error _, st') => st'
        | (.ok _, st') => (getItemNorms env st').2) := by
  have hr := runs_recalculateItem env st ids rows
  cases hx : recalculateItem env st ids rows with
  | mk r st' =>
    rw [hx] at hr
    cases r with
    | error e => exact RunsTo.andThen_error hr
    | ok query =>
      refine RunsTo.andThen hr ?_
      rintro s ⟨hv, rfl⟩
      obtain ⟨n, s', h, hs', hn, ht, hc⟩ := norms_alone env .item hv
      refine ⟨s', ?_, hs'⟩
      have hu : (getItemNorms env s.view).2.item = s.view.item := getNorms_same env s.view .item
      have hn' : s'.array .item n = (getItemNorms env s.view).1 := hn
      have htab : s'.tab .item (s.cur .item) = s.view.item := by unfold Shared.tab; rw [ht]; rfl
      simp only [hu]
      simp only [alone_bind, alone_andThen, alone_read, Option.bind_some, h, hn', htab]
      rfl

theorem runs_explain (env : Env f R) (st : MFState f R) (userid : Nat) (rows : SpRows R) (itemid : Nat) (weights : Option (Mat f R))
    (N : Nat) : RunsTo (explainProg env userid rows itemid weights N) st (explain env st userid rows itemid weights N).1
      (explain env st userid rows itemid weights N).2 := by
  unfold explainProg
  cases hrow : (applyAlpha env.p.alpha rows)[userid]? with
  | none =>
    cases weights with
    | some A =>
      have : explain env st userid rows itemid (some A) N = (.error .indexError, st) := by unfold explain; rw [hrow]; rfl
      rw [this]
      exact RunsTo.done _ _
    | none =>
      have : explain env st userid rows itemid none N = (.error .indexError, (getYtY st).2) := by unfold explain; rw [hrow]; rfl
      rw [this]
      exact RunsTo.andThen (runs_YtY st) (RunsTo.done _ _)
  | some row =>
    cases weights with
    | some A =>
      have e : explain env st userid rows itemid (some A) N =
          ((explain env (seen [] (st.side .item) none none) userid rows itemid (some A) N).1, st) := by
        unfold explain
        rw [hrow]
        rfl
      rw [e]
      exact RunsTo.bind (runs_table .item _) (RunsTo.done _ _)
    | none =>
      have hi : (getYtY st).2.item = st.item := by unfold getYtY; cases st.YtY <;> rfl
      have e : explain env st userid rows itemid none N =
          ((explain env (seen [] ((getYtY st).2.side .item) (some (getYtY st).1) none) userid rows itemid none N).1, (getYtY st).2) := by
        show _ = ((explain env (seen [] (getYtY st).2.item (some (getYtY st).1) none) userid rows itemid none N).1, (getYtY st).2)
        rw [hi]
        unfold explain
        rw [hrow]
        simp only [hi]
        rfl
      rw [e]
      exact RunsTo.andThen (runs_YtY st) (RunsTo.bind (runs_table .item _) (RunsTo.done _ _))

theorem runs_map {α β : Type} {p : Thread f R α} {st st' : MFState f R} {x : Except Err α} (g : α → β) (hp : RunsTo p st x st') :
    RunsTo (p.andThen fun a => .done (.ok (g a))) st (x.map g) st' := by
  cases x with
  | error e => exact RunsTo.andThen_error hp
  | ok a => exact RunsTo.andThen hp (RunsTo.done _ _)

theorem runs_query (env : Env f R) (st : MFState f R) (q : Query f R) :
    RunsTo (queryProg env q) st (runQuery env st q).1 (runQuery env st q).2 := by
  cases q with
  | recommend ids userItems N fl fi rc items => exact runs_map _ (runs_recommend env st ids userItems N fl fi rc items)
  | similarItems ids N fi items =>
    have h := runs_map (Result.answer (f := f)) (runs_similarItems env st ids N fi items)
    show RunsTo ((similarItemsProg env ids N fi items).andThen fun a => .done (.ok (Result.answer (f := f) a))) _ _ _
    unfold runQuery
    cases hg : (gather st.item ids.toList).isOkB with
    | true => simpa only [hg, if_true] using h
    | false => simpa only [hg, Bool.false_eq_true, if_false, Except.map] using h
  | similarItemsRecalc ids rows N fi items =>
    have h := runs_map (Result.answer (f := f)) (runs_similarItemsRecalc env st ids rows N fi items)
    show RunsTo ((similarItemsRecalcProg env ids rows N fi items).andThen fun a => .done (.ok (Result.answer (f := f) a))) _ _ _
    unfold runQuery
    cases hx : recalculateItem env st ids rows with
    | mk r st' =>
      rw [hx] at h
      cases r with
      | error e => simp only [hx]; exact h
      | ok xs => simp only [hx]; exact h
  | similarUsers ids N fi items => exact runs_map _ (runs_similarUsers env st ids N fi items)
  | recalculateUser ids rows => exact runs_map _ (runs_recalculateUser env st ids rows)
  | recalculateItem ids rows => exact runs_map _ (runs_recalculateItem env st ids rows)
  | explain userid rows itemid weights N => exact runs_map _ (runs_explain env st userid rows itemid weights N)

theorem storeRows_alone (d : Side) (p : Nat) : ∀ (rows : List (Nat × Vec f R)) (s : Shared f R), p < (s.tabs d).length →
    (storeRows d p rows).alone s = some (.ok (),
      { s with tabs := Function.update s.tabs d ((s.tabs d).set p (assignRows (s.tab d p) rows)) })
  | [], s, hp => by
    have : (s.tabs d).set p (s.tab d p) = s.tabs d := by
      unfold Shared.tab
      rw [List.getD_eq_getElem?_getD, List.getElem?_eq_getElem hp]
      exact List.set_getElem_self hp
    simp only [storeRows, alone_done, assignRows, this, Function.update_eq_self]
  | (i, x) :: rest, s, hp => by
    simp only [storeRows, alone_bind, alone_write, Option.bind_some]
    rw [storeRows_alone d p rest _ (by simpa using hp)]
    simp only [assignRows, Function.update_self, Function.update_idem, List.set_set, Shared.tab, List.getD_eq_getElem?_getD,
      List.getElem?_set_self hp, Option.getD_some]

/-- The model after its factors of side `d` were replaced and the values computed from them dropped. -/
def MFState.replaced (st : MFState f R) (d : Side) (t : List (Vec f R)) : MFState f R :=
  match d with
  | .user => { st with user := t, userNorms := none, XtX := none }
  | .item => { st with item := t, itemNorms := none, YtY := none }

theorem view_replaced (s : Shared f R) (d : Side) (tabs : List (List (Vec f R))) (p : Nat) (t : List (Vec f R))
    (ht : tabs.getD p [] = t) :
    ({ tabs := Function.update s.tabs d tabs, cur := Function.update s.cur d p, arrays := s.arrays,
       norms := Function.update s.norms d none, gram := Function.update s.gram d none } : Shared f R).view = s.view.replaced d t := by
  cases d <;> refine MFState.ext' ?_ ?_ ?_ ?_ ?_ ?_ <;>
    simp [Shared.view, MFState.replaced, Shared.tab, ← ht] <;> rfl

theorem runs_store (d : Side) (st : MFState f R) (ids : List Nat) (xs : List (Vec f R)) :
    RunsTo (storeProg d ids xs) st
      (match pyMax ids with | .error e => .error e | .ok _ => .ok ())
      (match pyMax ids with
        | .error _ => st
        | .ok m => st.replaced d (assignRows (growTo m (st.side d)) (ids.zip xs))) := by
  rintro s ⟨hv, rfl⟩
  have hside : s.view.side d = s.tab d (s.cur d) := by cases d <;> rfl
  unfold storeProg
  simp only [alone_bind, alone_read, Option.bind_some]
  cases hm : pyMax ids with
  | error e => exact ⟨s, rfl, hv, rfl⟩
  | ok m =>
    simp only
    have hids := pyMax_le hm
    rw [hside]
    by_cases hg : (s.tab d (s.cur d)).length ≤ m
    · have hgrow : growTo m (s.tab d (s.cur d)) = s.tab d (s.cur d) ++ List.replicate (m - (s.tab d (s.cur d)).length + 1) (fun _ => 0) := by
        unfold growTo
        rw [if_pos hg]
      have hlast : ∀ a : List (Vec f R), ((s.tabs d ++ [a])[(s.tabs d).length]?).getD [] = a := by intro a; simp
      have hall : ids.all (fun i => decide (i < (growTo m (s.tab d (s.cur d))).length)) = true := by
        rw [List.all_eq_true]
        exact fun i hi => decide_eq_true (lt_of_le_of_lt (hids i hi) (growTo_gt m _))
      rw [if_pos hg]
      simp only [growProg, tableProg, alone_bind, alone_andThen, alone_read, alone_write, alone_done, Option.bind_some,
        Function.update_self, Shared.tab, List.getD_eq_getElem?_getD, hlast]
      simp only [Shared.tab, List.getD_eq_getElem?_getD] at hgrow hall
      rw [← hgrow]
      simp only [hall, if_true]
      rw [storeRows_alone _ _ _ _ (by simp)]
      simp only [Option.bind_some, Function.update_self, Function.update_idem, Shared.tab, List.getD_eq_getElem?_getD, hlast]
      refine ⟨_, rfl, ⟨fun d' => ?_, fun d' p hp => ?_⟩, ?_⟩
      · by_cases hd : d' = d
        · subst hd; simp
        · simp only [Function.update_of_ne hd]; exact hv.cur d'
      · by_cases hd : d' = d
        · subst hd; simp at hp
        · simp only [Function.update_of_ne hd] at hp; exact hv.norms d' p hp
      · exact view_replaced s d _ _ _ (by simp)
    · have hgrow : growTo m (s.tab d (s.cur d)) = s.tab d (s.cur d) := by
        unfold growTo
        rw [if_neg hg]
      have hall : ids.all (fun i => decide (i < (s.tab d (s.cur d)).length)) = true := by
        rw [List.all_eq_true]
        exact fun i hi => decide_eq_true (lt_of_le_of_lt (hids i hi) (by omega))
      rw [if_neg hg]
      simp only [alone_andThen, alone_bind, alone_read, alone_write, alone_done, Option.bind_some, hall, if_true]
      rw [storeRows_alone _ _ _ _ (hv.cur d), hgrow]
      simp only [Option.bind_some]
      refine ⟨_, rfl, ⟨fun d' => ?_, fun d' p hp => ?_⟩, ?_⟩
      · by_cases hd : d' = d
        · subst hd; simpa using hv.cur d'
        · simp only [Function.update_of_ne hd]; exact hv.cur d'
      · by_cases hd : d' = d
        · subst hd; simp at hp
        · simp only [Function.update_of_ne hd] at hp; exact hv.norms d' p hp
      · have := view_replaced s d ((s.tabs d).set (s.cur d) (assignRows (s.tab d (s.cur d)) (ids.zip xs))) (s.cur d)
          (assignRows (s.tab d (s.cur d)) (ids.zip xs)) (by simp [hv.cur d])
        rw [Function.update_eq_self] at this
        exact this

theorem runs_fitUsers (env : Env f R) (st : MFState f R) (ids : List Nat) (rows : SpRows R) :
    RunsTo (partialFitUsersProg env ids rows) st (partialFitUsers env st ids rows).1 (partialFitUsers env st ids rows).2 := by
  unfold partialFitUsersProg partialFitUsers
  split_ifs with h
  · exact RunsTo.done _ _
  · have hr := runs_recalculateUser env st (.many ids) rows
    cases hx : recalculateUser env st (.many ids) rows with
    | mk r st' =>
      rw [hx] at hr
      cases r with
      | error e => exact RunsTo.andThen_error hr
      | ok xs =>
        refine RunsTo.andThen hr ?_
        have := runs_store .user st' ids xs
        cases hm : pyMax ids with
        | error e => simpa only [hm] using this
        | ok m => rw [hm] at this; exact this

theorem runs_fitItems (env : Env f R) (st : MFState f R) (ids : List Nat) (rows : SpRows R) :
    RunsTo (partialFitItemsProg env ids rows) st (partialFitItems env st ids rows).1 (partialFitItems env st ids rows).2 := by
  unfold partialFitItemsProg partialFitItems
  split_ifs with h
  · exact RunsTo.done _ _
  · have hr := runs_recalculateItem env st (.many ids) rows
    cases hx : recalculateItem env st (.many ids) rows with
    | mk r st' =>
      rw [hx] at hr
      cases r with
      | error e => exact RunsTo.andThen_error hr
      | ok xs =>
        refine RunsTo.andThen hr ?_
        have := runs_store .item st' ids xs
        cases hm : pyMax ids with
        | error e => simpa only [hm] using this
        | ok m => rw [hm] at this; exact this

/-- What a call returns to its caller when no other thread runs. -/
def ModelCall.returns (env : Env f R) (st : MFState f R) : ModelCall f R → Except Err (Option (Result f R))
  | .query q => (runQuery env st q).1.map some
  | .updateUsers ids rows => (partialFitUsers env st ids rows).1.map fun _ => none
  | .updateItems ids rows => (partialFitItems env st ids rows).1.map fun _ => none

/-- What a list of calls returns, one after the other. -/
def callsReturn (env : Env f R) : MFState f R → List (ModelCall f R) → List (Except Err (Option (Result f R)))
  | _, [] => []
  | st, c :: cs => c.returns env st :: callsReturn env (runOp env st c.op) cs

theorem runs_call (env : Env f R) (st : MFState f R) (c : ModelCall f R) :
    RunsTo (c.prog env) st (c.returns env st) (runOp env st c.op) := by
  cases c with
  | query q => exact runs_map some (runs_query env st q)
  | updateUsers ids rows => exact runs_map _ (runs_fitUsers env st ids rows)
  | updateItems ids rows => exact runs_map _ (runs_fitItems env st ids rows)

theorem runs_calls (env : Env f R) : ∀ (calls : List (ModelCall f R)) (st : MFState f R),
    RunsTo (Prog.sequence (calls.map (ModelCall.prog env))) st (callsReturn env st calls) (runOps env st (calls.map ModelCall.op))
  | [], _ => RunsTo.done _ _
  | c :: cs, st => RunsTo.bind (runs_call env st c) (RunsTo.bind (runs_calls env cs _) (RunsTo.done _ _))

theorem start_is (st : MFState f R) : (Shared.start st).Is st := by
  refine ⟨⟨fun d => by cases d <;> simp [Shared.start], fun d p hp => ?_⟩, ?_⟩
  · cases d
    · cases h : st.userNorms <;> simp [Shared.start, h] at hp ⊢; omega
    · cases h : st.itemNorms <;> simp [Shared.start, h] at hp ⊢; omega
  · refine MFState.ext' rfl rfl ?_ ?_ rfl rfl
    · cases h : st.userNorms <;> simp [Shared.start, Shared.view, Shared.array, h]
    · cases h : st.itemNorms <;> simp [Shared.start, Shared.view, Shared.array, h]

theorem run_single {S α : Type} : ∀ (schedule : List Nat) (p : Prog S α) (s : S) (a : α) (s' : S), p.alone s = some (a, s') →
    ∀ r, (Proc.run ⟨s, [p]⟩ schedule).result 0 = some r → r = a ∧ (Proc.run ⟨s, [p]⟩ schedule).state = s'
  | [], p, s, a, s', h, r, hr => by
    cases p with
    | done b =>
      cases h
      cases hr
      exact ⟨rfl, rfl⟩
    | step _ _ _ => cases hr
  | j :: js, p, s, a, s', h, r, hr => by
    have hstep : ∃ p' s'', Proc.step ⟨s, [p]⟩ j = ⟨s'', [p']⟩ ∧ p'.alone s'' = some (a, s') := by
      cases j with
      | succ j => exact ⟨p, s, by simp [Proc.step], h⟩
      | zero =>
        cases p with
        | done b => exact ⟨_, _, rfl, h⟩
        | step ready act next =>
          have hr : ready s = true := by
            by_contra hn
            simp only [Prog.alone, if_neg hn] at h
            cases h
          simp only [Prog.alone, hr, if_true] at h
          exact ⟨next s, act s, by simp [Proc.step, hr], h⟩
    obtain ⟨p', s'', e, h'⟩ := hstep
    show r = a ∧ (Proc.run (Proc.step ⟨s, [p]⟩ j) js).state = s'
    have hr' : (Proc.run (Proc.step ⟨s, [p]⟩ j) js).result 0 = some r := hr
    rw [e] at hr' ⊢
    exact run_single js p' s'' a s' h' r hr'

/-- **C72** (one thread).  A thread that has the model for itself gets from every call what the call returns in a program without
threads, and leaves the same model. -/
theorem C72_one_thread (env : Env f R) (st : MFState f R) (calls : List (ModelCall f R)) (schedule : List Nat)
    (results : List (Except Err (Option (Result f R))))
    (hr : ((modelProcess env st [calls]).run schedule).result 0 = some results) :
    results = callsReturn env st calls ∧
      ((modelProcess env st [calls]).run schedule).state.view = runOps env st (calls.map ModelCall.op) := by
  obtain ⟨s', h, hs'⟩ := runs_calls env calls st _ (start_is st)
  have := run_single schedule _ _ _ _ h results hr
  exact ⟨this.1, this.2 ▸ hs'.2⟩

/-- **C72** (a lock of the application).  Any number of threads make any calls - queries and updates of both sides - each while
holding one lock.  When all are finished there is an order of the calls in which every thread's calls have their order, every call
has returned what it returns in a program without threads that makes the calls in this order, and the model is the one this program
leaves. -/
theorem C72_locked (env : Env f R) (st : MFState f R) (threads : List (List (ModelCall f R))) (schedule : List Nat)
    (hf : ((lockedProcess (ModelCall.prog env) (Shared.start st) threads).run schedule).finished = true) :
    let finish := (lockedProcess (ModelCall.prog env) (Shared.start st) threads).run schedule
    ∃ log : List (Nat × ModelCall f R × Except Err (Option (Result f R))),
      Spec.Serial (fun st c => c.returns env st) (fun st c => runOp env st c.op) st log finish.state.data.view ∧
      (∀ x ∈ log, x.1 < threads.length) ∧
      ∀ (i : Nat) (calls : List (ModelCall f R)), threads[i]? = some calls →
        Spec.callsOf i log = calls ∧ finish.result i = some (Spec.resultsOf i log) := by
  intro finish
  have hinv : LockInv (ModelCall.prog env) Shared.Is (fun st c => c.returns env st) (fun st c => runOp env st c.op) st threads finish :=
    LockInv.run (fun c s t h => runs_call env t c s h) schedule (LockInv.start threads (start_is st))
  obtain ⟨log, t, hser, his, hlog, h⟩ := hinv.finished hf
  exact ⟨log, his.2 ▸ hser, hlog, h⟩

/-- **C72** (a lock of the application, no deadlock).  Every fair schedule finishes all calls. -/
theorem C72_locked_finish (env : Env f R) (st : MFState f R) (threads : List (List (ModelCall f R)))
    (schedule : Nat → Nat) (hfair : ∀ i < threads.length, ∀ m, ∃ k, m ≤ k ∧ schedule k = i) :
    ∃ m, ((lockedProcess (ModelCall.prog env) (Shared.start st) threads).run ((List.range m).map schedule)).finished = true :=
  Proc.fair_finishes
    (LockInv (ModelCall.prog env) Shared.Is (fun st c => c.returns env st) (fun st c => runOp env st c.op) st threads)
    (fun _ i h => h.step (fun c s t h => runs_call env t c s h) i) (fun _ h hf => h.canRun hf) _
    (LockInv.start threads (start_is st)) threads.length (by simp [lockedProcess]) schedule hfair

/-- The race of `C72_lost_update_violated` with a lock: nothing is lost. -/
example :
    let calls : List (ModelCall 1 Rat) := [.updateUsers [1] [[(0, 1)]], .updateUsers [2] [[(0, 1)]]]
    let finish := (lockedProcess (ModelCall.prog c10Env) (Shared.start raceCold) (calls.map fun c => [c])).run
      (turns 1 9 ++ turns 0 60 ++ turns 1 60 ++ turns 0 60)
    finish.finished = true ∧ factorsNow .user finish.state.data = [1, 1 / 6, 1 / 6] := by
  decide +kernel

/-! ## The GPU -/

/-- The cached values of a GPU model are absent or those of its factors, and all of a kind are there. -/
def GpuShared.Clean (norms : List (Vec f R) → List R) (gramOf : List (Vec f R) → Mat f R) (item : List (Vec f R)) (s : GpuShared f R) :
    Prop :=
  s.item = item ∧ ((s.dev = none ∧ s.host = none) ∨ (s.dev = some (norms item) ∧ s.host = some (norms item))) ∧
    (s.yty = none ∨ ∃ p, s.yty = some p ∧ s.mats[p]? = some (gramOf item))

/-- What a GPU call reads in a program without threads. -/
def gpuReturns (norms : List (Vec f R) → List R) (gramOf : List (Vec f R) → Mat f R) (item : List (Vec f R)) :
    Option Nat → Except Err ((List R × R) ⊕ Mat f R)
  | some itemid => match (norms item)[itemid]? with
    | some x => .ok (.inl (norms item, x))
    | none => .error .indexError
  | none => .ok (.inr (gramOf item))

theorem gpuCall_alone (norms : List (Vec f R) → List R) (gramOf : List (Vec f R) → Mat f R) (item : List (Vec f R)) (c : Option Nat)
    (s : GpuShared f R) (h : s.Clean norms gramOf item) :
    ∃ s', (gpuCall norms gramOf c).alone s = some (gpuReturns norms gramOf item c, s') ∧ s'.Clean norms gramOf item := by
  obtain ⟨hi, hn, hg⟩ := h
  cases c with
  | some itemid =>
    have hhost : ∀ s' : GpuShared f R, s'.host = some (norms item) →
        (match gpuHostNorm itemid s'.host with
          | .error e => (some (.error e, s') : Option (Except Err ((List R × R) ⊕ Mat f R) × GpuShared f R))
          | .ok x => some (.ok (.inl (norms item, x)), s')) = some (gpuReturns norms gramOf item (some itemid), s') := by
      intro s' h
      rw [h]
      simp only [gpuReturns, gpuHostNorm]
      cases (norms item)[itemid]? <;> rfl
    rcases hn with ⟨hd, hh⟩ | ⟨hd, hh⟩
    · refine ⟨{ s with dev := some (norms item), host := some (norms item) }, ?_, hi, .inr ⟨rfl, rfl⟩, hg⟩
      rw [← hhost _ rfl]
      unfold gpuCall gpuSimilarNormsProg gpuNormsProg
      simp only [alone_andThen, alone_bind, alone_read, alone_write, alone_done, Option.bind_some, hd, hi, gpuNotNone]
      cases gpuHostNorm itemid (some (norms item)) <;> rfl
    · refine ⟨s, ?_, hi, .inr ⟨hd, hh⟩, hg⟩
      rw [← hhost s hh]
      unfold gpuCall gpuSimilarNormsProg gpuNormsProg
      simp only [alone_andThen, alone_bind, alone_read, alone_write, alone_done, Option.bind_some, hd, gpuNotNone]
      cases gpuHostNorm itemid s.host <;> rfl
  | none =>
    rcases hg with hy | ⟨p, hy, hp⟩
    · refine ⟨{ s with mats := s.mats ++ [gramOf item], yty := some s.mats.length }, ?_, hi, hn, .inr ⟨_, rfl, by simp⟩⟩
      unfold gpuCall gpuSolveGramProg gpuGramProg
      simp only [alone_andThen, alone_bind, alone_read, alone_write, alone_done, Option.bind_some, hy, hi, gpuNotNone]
      simp [gpuReturns]
    · refine ⟨s, ?_, hi, hn, .inr ⟨p, hy, hp⟩⟩
      unfold gpuCall gpuSolveGramProg gpuGramProg
      simp only [alone_andThen, alone_bind, alone_read, alone_done, Option.bind_some, hy, gpuNotNone,
        List.getD_eq_getElem?_getD, hp, Option.getD_some]
      rfl

/-- **C72** (GPU, a lock of the application).  With one lock around every call, all calls on a GPU model read the norms and the Gram
matrix of its factors, also the first ones. -/
theorem C72_gpu_locked (norms : List (Vec f R) → List R) (gramOf : List (Vec f R) → Mat f R) (item : List (Vec f R))
    (start : GpuShared f R) (hs : start.Clean norms gramOf item) (threads : List (List (Option Nat))) (schedule : List Nat)
    (hf : ((lockedProcess (gpuCall norms gramOf) start threads).run schedule).finished = true) (i : Nat) (calls : List (Option Nat))
    (hi : threads[i]? = some calls) :
    ((lockedProcess (gpuCall norms gramOf) start threads).run schedule).result i = some (calls.map (gpuReturns norms gramOf item)) := by
  have hinv : LockInv (T := Unit) (gpuCall norms gramOf) (fun s _ => s.Clean norms gramOf item)
      (fun _ c => gpuReturns norms gramOf item c) (fun _ _ => ()) () threads
      ((lockedProcess (gpuCall norms gramOf) start threads).run schedule) :=
    LockInv.run (fun c s _ h => gpuCall_alone norms gramOf item c s h) schedule (LockInv.start threads hs)
  obtain ⟨log, t, hser, -, -, h⟩ := hinv.finished hf
  obtain ⟨h1, h2⟩ := h i calls hi
  rw [h2, ← h1]
  congr 1
  have : ∀ (log : List (Nat × Option Nat × Except Err ((List R × R) ⊕ Mat f R))) (t' : Unit),
      Spec.Serial (fun _ c => gpuReturns norms gramOf item c) (fun _ _ => ()) () log t' →
      ∀ x ∈ log, x.2.2 = gpuReturns norms gramOf item x.2.1 := by
    intro log
    induction log with
    | nil => intro _ _ x hx; simp at hx
    | cons y log ih =>
      obtain ⟨j, c, a⟩ := y
      rintro t' ⟨ha, hl⟩ x hx
      rcases List.mem_cons.mp hx with rfl | hx
      · exact ha
      · exact ih t' hl x hx
  have hx := this log t hser
  unfold Spec.resultsOf Spec.callsOf
  rw [List.map_map]
  exact List.map_congr_left fun x hm => hx x (List.mem_of_mem_filter hm)

set_option synthInstance.maxSize 512 in
set_option synthInstance.maxHeartbeats 200000 in
/-- The race of `C72_gpu_norms_violated` with a lock. -/
example :
    let norms : List (Vec 1 Rat) → List Rat := fun t => t.map fun v => |v 0|
    let start := lockedProcess (gpuCall norms gram) (.cold [![1], ![-2]]) [[some 1], [some 0, some 2]]
    let finish := start.run ([0, 0, 0, 0] ++ [1, 1, 1, 1] ++ turns 0 10 ++ turns 1 30)
    finish.finished = true ∧ (finish.result 0).map (·.map (·.map fun x => (Sum.getLeft? x))) = some [.ok (some ([1, 2], 2))] ∧
      (finish.result 1).map (·.map (·.map fun x => (Sum.getLeft? x))) = some [.ok (some ([1, 2], 1)), .error .indexError] := by
  decide +kernel

end Implicit
