import Verif.Lemmas.Queries
import Verif.Props.C18

/-!
# C10 — cached norms and Gram matrices always match the current factors

The English property quantifies over all histories, including queries made from a `fit` callback.  It
holds for histories whose callbacks fill no cache (`C10_history_partial`); it fails for callbacks that
do, and for refitting models that do not drop their caches.
-/

set_option linter.unusedSectionVars false

namespace Implicit

variable {R : Type} [LinearOrder R] [Field R] {f : Nat}

/-- `recommend` without recalculation: a query that uses no cache. -/
def Query.plain : Query f R → Bool
  | .recommend _ _ _ _ _ false _ => true
  | _ => false

theorem runQuery_plain (env : Env f R) (st : MFState f R) {q : Query f R} (h : q.plain = true) :
    (runQuery env st q).2 = st := by
  cases q with
  | recommend ids ui N fl fi recalculate items =>
    cases recalculate with
    | false => rfl
    | true => simp [Query.plain] at h
  | _ => simp [Query.plain] at h

theorem runQueries_plain (env : Env f R) : ∀ (qs : List (Query f R)) (st : MFState f R),
    (∀ q ∈ qs, q.plain = true) → (runQueries env st qs).2 = st
  | [], _, _ => rfl
  | q :: qs, st, h => by
    unfold runQueries
    simp only
    rw [runQuery_plain env st (h q (by simp)), runQueries_plain env qs st fun q hq => h q (by simp [hq])]

/-- No cache is filled. -/
def NoCache (st : MFState f R) : Prop :=
  st.userNorms = none ∧ st.itemNorms = none ∧ st.YtY = none ∧ st.XtX = none

theorem NoCache.coherent {st : MFState f R} (env : Env f R) (h : NoCache st) : Coherent env st := by
  obtain ⟨h1, h2, h3, h4⟩ := h
  exact ⟨by simp [h1], by simp [h2], by simp [h3], by simp [h4]⟩

theorem fitEpochs_noCache (env : Env f R) (train : Nat → Factors f R → Except Err (Factors f R))
    (callback : Nat → List (Query f R)) (torn : Factors f R)
    (hcb : ∀ i, ∀ q ∈ callback i, q.plain = true) : ∀ (n i : Nat) (st : MFState f R),
    NoCache st → NoCache (fitEpochs env train callback torn i n st).2
  | 0, _, _, h => h
  | n + 1, i, st, h => by
    unfold fitEpochs
    cases train i ⟨st.user, st.item⟩ with
    | error e => exact h
    | ok m =>
      simp only
      rw [runQueries_plain env _ _ (hcb i)]
      exact fitEpochs_noCache env train callback torn hcb n (i + 1) _ h

theorem partialFitUsers_coherent {env : Env f R} {st : MFState f R} (h : Coherent env st)
    (ids : List Nat) (rows : SpRows R) : Coherent env (partialFitUsers env st ids rows).2 := by
  have hc := recalculateUser_coherent h (.many ids) rows
  unfold partialFitUsers
  split
  · exact h
  · rcases hr : recalculateUser env st (.many ids) rows with ⟨r, st'⟩
    rw [hr] at hc
    cases r with
    | error e => exact hc
    | ok xs =>
      simp only
      cases pyMax ids with
      | error e => exact hc
      | ok m => exact ⟨by simp, hc.itemNorms, hc.YtY, by simp⟩

theorem partialFitItems_coherent {env : Env f R} {st : MFState f R} (h : Coherent env st)
    (ids : List Nat) (rows : SpRows R) : Coherent env (partialFitItems env st ids rows).2 := by
  rw [partialFitItems_swap]
  exact (partialFitUsers_coherent h.swap ids rows).swap

/-- Operations for which the property holds: `fit` of a model that drops its caches at the start, with
a callback that makes no query other than plain `recommend`; `partial_fit_*`; any query. -/
def Op.careful : Op f R → Prop
  | .fit invalidate _ callback _ _ => invalidate = true ∧ ∀ i, ∀ q ∈ callback i, q.plain = true
  | _ => True

/-- **C10** (histories).  After any sequence of such operations, whether they return or raise, whatever
the epochs of `fit` compute, every cache that is filled belongs to the current factors. -/
theorem C10_history_partial (env : Env f R) (ops : List (Op f R)) (hops : ∀ op ∈ ops, op.careful)
    (st : MFState f R) (hst : Coherent env st) : Coherent env (runOps env st ops) := by
  induction ops generalizing st with
  | nil => exact hst
  | cons op ops ih =>
    refine ih (fun o ho => hops o (List.mem_cons_of_mem _ ho)) (runOp env st op) ?_
    have hop := hops op (by simp)
    cases op with
    | fit invalidate train callback torn epochs =>
      obtain ⟨rfl, hcb⟩ := hop
      refine NoCache.coherent env ?_
      exact fitEpochs_noCache env train callback torn hcb epochs 0 _ ⟨rfl, rfl, rfl, rfl⟩
    | partialFitUsers ids rows => exact partialFitUsers_coherent hst ids rows
    | partialFitItems ids rows => exact partialFitItems_coherent hst ids rows
    | query q => exact runQuery_coherent hst q

/-- **C10** (answers).  After such a history every query answers exactly as a model that has the
current factors and no caches. -/
theorem C10_answers_partial (env : Env f R) (init : Factors f R) (ops : List (Op f R))
    (hops : ∀ op ∈ ops, op.careful) (q : Query f R) :
    let st := runOps env (freshState init) ops
    (runQuery env st q).1 = (runQuery env (freshState ⟨st.user, st.item⟩) q).1 :=
  runQuery_fresh (C10_history_partial env ops hops _ (coherent_fresh env init)) q

/-- **C10** (the values themselves): the norms and Gram matrices handed to the scoring and recalculating
code are those of the current factors. -/
theorem C10_values_partial (env : Env f R) (init : Factors f R) (ops : List (Op f R))
    (hops : ∀ op ∈ ops, op.careful) :
    let st := runOps env (freshState init) ops
    (getUserNorms env st).1 = (st.user.map fun x => if env.norm x = 0 then env.eps else env.norm x) ∧
      (getItemNorms env st).1 = (st.item.map fun x => if env.norm x = 0 then env.eps else env.norm x) ∧
      (getYtY st).1 = (fun a b => (st.item.map fun y => y a * y b).sum) ∧
      (getXtX st).1 = (fun a b => (st.user.map fun x => x a * x b).sum) := by
  intro st
  have h := C10_history_partial env ops hops _ (coherent_fresh env init)
  exact ⟨getUserNorms_fst h, getItemNorms_fst h, getYtY_fst h, getXtX_fst h⟩

/-! ## Where it fails -/

/-- One factor; the norm is the absolute value. -/
def c10Env : Env 1 Rat :=
  ⟨insertionHeap, -1000, fun v => |v 0|, 1 / 10 ^ 10, scalarSolver Rat, 1 / 10 ^ 20,
    ⟨1, 1, true, true, 3, 2⟩⟩

/-- The list returned by a query about one entity. -/
def listOf : Except Err (Result 1 Rat) → Option (List (Nat × Rat))
  | .ok (.answer (.one l)) => some l
  | _ => none

/-- Two epochs that make the first item longer and the second shorter. -/
def c10Train : Nat → Factors 1 Rat → Except Err (Factors 1 Rat) := fun i m =>
  .ok ⟨m.user, if i = 0 then [![1], ![4]] else [![2], ![1]]⟩

/-- `similar_items(0, N=2)`. -/
def c10Query : Query 1 Rat := .similarItems (.one 0) 2 none none

/-- **C10 is violated** by a query made from the callback: after `fit` with a callback that calls
`similar_items` in the first epoch, `similar_items` works with the norms of that epoch (and returns
similarities larger than 1). -/
theorem C10_callback_violated :
    let st := runOp c10Env (freshState ⟨[![1]], [![1], ![1]]⟩)
      (.fit true c10Train (fun i => if i = 0 then [c10Query] else []) ⟨[], []⟩ 2)
    listOf (runQuery c10Env st c10Query).1 = some [(0, 4), (1, 1 / 2)] ∧
      listOf (runQuery c10Env (freshState ⟨st.user, st.item⟩) c10Query).1 = some [(1, 1), (0, 1)] := by
  decide +kernel

/-- The same happens to the Gram matrix used by `recalculate_user`. -/
theorem C10_callback_gram_violated :
    let st := runOp c10Env (freshState ⟨[![1]], [![1], ![1]]⟩)
      (.fit true c10Train (fun i => if i = 0 then [.recalculateUser (.one 0) [[(0, 1)]]] else [])
        ⟨[], []⟩ 2)
    st.YtY.map (fun G => G 0 0) = some 17 ∧ gram st.item 0 0 = 5 := by
  decide +kernel

/-- **C10 is violated** by refitting a model that does not drop its caches (logistic matrix
factorisation): fit, query, fit again, query. -/
theorem C10_lmf_refit_violated :
    let st := runOps c10Env (freshState ⟨[![1]], [![1], ![1]]⟩)
      [.fit false c10Train (fun _ => []) ⟨[], []⟩ 1, .query c10Query,
        .fit false (fun i => c10Train (i + 1)) (fun _ => []) ⟨[], []⟩ 1]
    listOf (runQuery c10Env st c10Query).1 = some [(0, 4), (1, 1 / 2)] ∧
      listOf (runQuery c10Env (freshState ⟨st.user, st.item⟩) c10Query).1 = some [(1, 1), (0, 1)] := by
  decide +kernel

/-- A careful history with all kinds of operations. -/
example : ∀ op ∈ [Op.fit true c10Train (fun _ => [.recommend (.one 0) none 2 false none false none])
      ⟨[], []⟩ 2, .query c10Query, .partialFitItems [1, 3] [[(0, 2)], []], .query c10Query,
      .partialFitUsers [0] [[(1, 1)]]], op.careful := by
  simp [Op.careful, Query.plain]

end Implicit
