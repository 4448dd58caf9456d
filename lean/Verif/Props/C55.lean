import Verif.Lemmas.GpuState
import Verif.Props.C53
import Verif.Props.C10

/-!
# C55 — the caches of the GPU models always match the current factors

As on the CPU (C09, C10) this holds for histories whose `fit` callbacks fill no cache.  It also fails for half
precision models: `partial_fit_*` raises after growing the factors, and the cached norms stay.
-/

set_option linter.unusedSectionVars false

namespace Implicit

variable {R : Type} [LinearOrder R] [Field R] {f : Nat}

/-- `recommend` without recalculation: a query that uses no cache. -/
def GpuAsk.plain : GpuAsk R → Bool
  | .recommend _ _ _ _ _ _ false _ => true
  | _ => false

theorem gpuAsk_plain (env : GpuModelEnv f R) (st : GpuState f R) {q : GpuAsk R} (h : q.plain = true) :
    (gpuAsk env st q).2 = st := by
  cases q with
  | recommend ids cols ui N fl fi recalculate items =>
    cases recalculate with
    | false => rfl
    | true => simp [GpuAsk.plain] at h
  | _ => simp [GpuAsk.plain] at h

theorem gpuAsks_plain (env : GpuModelEnv f R) : ∀ (qs : List (GpuAsk R)) (st : GpuState f R),
    (∀ q ∈ qs, q.plain = true) → (gpuAsks env st qs).2 = st
  | [], _, _ => rfl
  | q :: qs, st, h => by
    unfold gpuAsks
    simp only
    rw [gpuAsk_plain env st (h q (by simp)), gpuAsks_plain env qs st fun q hq => h q (by simp [hq])]

/-- Nothing is cached, except possibly norms on the host (which are not used). -/
def NoGpuCache (st : GpuState f R) : Prop :=
  st.userNorms = none ∧ st.itemNorms = none ∧ st.YtY = none ∧ st.XtX = none

theorem NoGpuCache.coherent {st : GpuState f R} (env : GpuModelEnv f R) (h : NoGpuCache st) :
    GpuCoherent env st := by
  obtain ⟨h1, h2, h3, h4⟩ := h
  exact ⟨by simp [h1], by simp [h2], by simp [h3], by simp [h4]⟩

theorem gpuFitEpochs_noCache (env : GpuModelEnv f R) (train : Nat → Factors f R → Except Err (Factors f R))
    (callback : Nat → List (GpuAsk R)) (torn : Factors f R)
    (hcb : ∀ i, ∀ q ∈ callback i, q.plain = true) : ∀ (n i : Nat) (st : GpuState f R),
    NoGpuCache st → NoGpuCache (gpuFitEpochs env train callback torn i n st).2
  | 0, _, _, h => h
  | n + 1, i, st, h => by
    unfold gpuFitEpochs
    cases train i ⟨st.user, st.item⟩ with
    | error e => exact h
    | ok m =>
      simp only
      rw [gpuAsks_plain env _ _ (hcb i)]
      split
      · exact h
      · exact gpuFitEpochs_noCache env train callback torn hcb n (i + 1) _ h

/-- The Gram matrices belong to the ALS models: BPR models have none. -/
def KindOk (env : GpuModelEnv f R) (st : GpuState f R) : Prop :=
  env.kind = .bpr → st.YtY = none ∧ st.XtX = none

theorem gpuAsk_kind {env : GpuModelEnv f R} {st : GpuState f R} (h : KindOk env st) (q : GpuAsk R) :
    KindOk env (gpuAsk env st q).2 := by
  intro hk
  have hU : ∀ (st : GpuState f R) (c k : Nat) rows, (gpuRecalcUser env st c k rows).2 = st := by
    intro st c k rows; unfold gpuRecalcUser; rw [hk]
  have hI : ∀ (st : GpuState f R) (c k : Nat) rows, (gpuRecalcItem env st c k rows).2 = st := by
    intro st c k rows; unfold gpuRecalcItem; rw [hk]
  have hnu : (gpuUserNorms env st).YtY = st.YtY ∧ (gpuUserNorms env st).XtX = st.XtX := by
    unfold gpuUserNorms; cases st.userNorms <;> exact ⟨rfl, rfl⟩
  have hni : (gpuItemNorms env st).YtY = st.YtY ∧ (gpuItemNorms env st).XtX = st.XtX := by
    unfold gpuItemNorms; cases st.itemNorms <;> exact ⟨rfl, rfl⟩
  have h := h hk
  cases q with
  | recommend ids cols ui N fl fi recalculate items =>
    simp only [gpuAsk]
    split
    · rename_i rows _
      have hs := hU st ids.count cols rows
      rcases hr : gpuRecalcUser env st ids.count cols rows with ⟨r, st'⟩
      rw [hr] at hs
      simp only at hs
      subst hs
      cases r <;> exact h
    · exact h
  | similarItems ids N fi items => exact ⟨hni.1.trans h.1, hni.2.trans h.2⟩
  | similarUsers ids N fi items => exact ⟨hnu.1.trans h.1, hnu.2.trans h.2⟩
  | similarItemsRecalc ids cols iu N fi items =>
    have h' : (gpuItemNorms env st).YtY = none ∧ (gpuItemNorms env st).XtX = none :=
      ⟨hni.1.trans h.1, hni.2.trans h.2⟩
    simp only [gpuAsk]
    split
    · split
      · exact h'
      · have hs := hI (gpuItemNorms env st) ids.count cols iu
        rcases hr : gpuRecalcItem env (gpuItemNorms env st) ids.count cols iu with ⟨r, st'⟩
        rw [hr] at hs
        simp only at hs
        subst hs
        cases r <;> exact h'
    · exact h'
  | recalculateUser ids cols rows => simp only [gpuAsk]; rw [hU]; exact h
  | recalculateItem ids cols rows => simp only [gpuAsk]; rw [hI]; exact h

/-- Operations for which the property holds: `fit` with a callback that makes no query other than plain
`recommend`; `partial_fit_*` of a single precision model; anything else. -/
def GpuOp.careful (half : Bool) : GpuOp f R → Prop
  | .fit _ callback _ _ => ∀ i, ∀ q ∈ callback i, q.plain = true
  | .partialFitUsers .. => half = false
  | .partialFitItems .. => half = false
  | _ => True

theorem gpuPartialFitUsers_invariant {env : GpuModelEnv f R} {st : GpuState f R} (h : GpuCoherent env st)
    (hhalf : st.half = false) (order : List (Nat × Fin f)) (ids : List Int) (cols : Nat) (rows : SpRows R)
    (hub : isUndefined (gpuPartialFitUsers env order st ids cols rows).1 = false) :
    GpuCoherent env (gpuPartialFitUsers env order st ids cols rows).2 ∧
      (gpuPartialFitUsers env order st ids cols rows).2.half = false := by
  have hc := gpuRecalcUser_coherent h ids.length cols rows
  have hs := gpuRecalcUser_same env st ids.length cols rows
  rcases gpuPartialFitUsers_cases env order st ids cols rows with
    ⟨e, st', heq, rfl | rfl⟩ | ⟨m, st', rfl, -, hh, -⟩ | ⟨xs, m, st', out, rfl, -, hm, -, -, -, hout, heq⟩
  · rw [heq]; exact ⟨h, hhalf⟩
  · rw [heq]; exact ⟨hc, hs.1.trans hhalf⟩
  · rw [hhalf] at hh; cases hh
  · cases out with
    | ok u =>
      rw [heq]
      exact ⟨⟨fun n e => (by cases e), hc.itemNorms, hc.YtY, fun n e => (by cases e)⟩, hs.1.trans hhalf⟩
    | error e =>
      exfalso
      rw [heq] at hub
      have herr : ∀ (order : List (Nat × Fin f)) (l : List (Vec f R)) e,
          order.foldlM (gpuAssignCell ids xs) l = .error e → e = .undefinedBehaviour := by
        intro order
        induction order with
        | nil => intro l e h; cases h
        | cons c cs ih =>
          intro l e h
          rw [List.foldlM_cons] at h
          have hstep : ∀ e, gpuAssignCell ids xs l c = .error e → e = .undefinedBehaviour := by
            intro e h
            unfold gpuAssignCell at h
            split at h
            · split at h
              · cases h; rfl
              · split at h <;> cases h
                rfl
            · cases h; rfl
          cases hc : gpuAssignCell ids xs l c with
          | error e' => rw [hc] at h; cases h; exact hstep _ hc
          | ok l' => rw [hc] at h; exact ih l' e h
      rw [herr _ _ e hout] at hub
      cases hub

theorem gpuOp_invariant {env : GpuModelEnv f R} {st : GpuState f R} (h : GpuCoherent env st) (hk : KindOk env st)
    {op : GpuOp f R} (hop : op.careful st.half) (hub : isUndefined (gpuOp env st op).1 = false) :
    GpuCoherent env (gpuOp env st op).2 ∧ KindOk env (gpuOp env st op).2 ∧ (gpuOp env st op).2.half = st.half := by
  cases op with
  | fit train callback torn epochs =>
    have h0 : NoGpuCache (gpuInvalidate env st) := by
      unfold gpuInvalidate
      cases hkind : env.kind with
      | als => exact ⟨rfl, rfl, rfl, rfl⟩
      | bpr => exact ⟨rfl, rfl, (hk hkind).1, (hk hkind).2⟩
    have h1 := gpuFitEpochs_noCache env train callback torn hop epochs 0 _ h0
    refine ⟨h1.coherent env, fun _ => ⟨h1.2.2.1, h1.2.2.2⟩, ?_⟩
    have hh : ∀ (n i : Nat) (st : GpuState f R),
        (gpuFitEpochs env train callback torn i n st).2.half = st.half := by
      intro n
      induction n with
      | zero => intro i st; rfl
      | succ n ih =>
        intro i st
        unfold gpuFitEpochs
        cases train i ⟨st.user, st.item⟩ with
        | error e => rfl
        | ok m =>
          simp only
          rw [gpuAsks_plain env _ _ (hop i)]
          split
          · rfl
          · rw [ih]
    show (gpuFitEpochs env train callback torn 0 epochs (gpuInvalidate env st)).2.half = _
    rw [hh]
    unfold gpuInvalidate
    cases env.kind <;> rfl
  | partialFitUsers order ids cols rows =>
    have hop : st.half = false := hop
    obtain ⟨a, b⟩ := gpuPartialFitUsers_invariant h hop order ids cols rows hub
    refine ⟨a, fun hkind => ?_, b.trans hop.symm⟩
    show (gpuPartialFitUsers env order st ids cols rows).2.YtY = none ∧
      (gpuPartialFitUsers env order st ids cols rows).2.XtX = none
    unfold gpuPartialFitUsers
    rw [if_pos hkind]
    exact hk hkind
  | partialFitItems order ids cols rows =>
    have hop : st.half = false := hop
    have hub : isUndefined (gpuPartialFitItems env order st ids cols rows).1 = false := hub
    rw [gpuPartialFitItems_swap] at hub
    obtain ⟨a, b⟩ := gpuPartialFitUsers_invariant h.swap hop order ids cols rows hub
    show GpuCoherent env (gpuPartialFitItems env order st ids cols rows).2 ∧ _
    refine ⟨?_, fun hkind => ?_, ?_⟩
    · rw [gpuPartialFitItems_swap]; exact a.swap
    · show (gpuPartialFitItems env order st ids cols rows).2.YtY = none ∧
        (gpuPartialFitItems env order st ids cols rows).2.XtX = none
      unfold gpuPartialFitItems
      rw [if_pos hkind]
      exact hk hkind
    · show (gpuPartialFitItems env order st ids cols rows).2.half = _
      rw [gpuPartialFitItems_swap]; exact b.trans hop.symm
  | query q => exact ⟨gpuAsk_coherent h q, gpuAsk_kind hk q, (gpuAsk_same env st q).1⟩
  | pickle =>
    show GpuCoherent env (gpuPickle st).2 ∧ KindOk env (gpuPickle st).2 ∧ (gpuPickle st).2.half = st.half
    unfold gpuPickle
    split
    · exact ⟨h, hk, rfl⟩
    · exact ⟨⟨fun n e => (by cases e), fun n e => (by cases e), h.YtY, h.XtX⟩, hk, rfl⟩
  | viaCpu =>
    show GpuCoherent env (gpuViaCpu st).2 ∧ KindOk env (gpuViaCpu st).2 ∧ (gpuViaCpu st).2.half = st.half
    unfold gpuViaCpu
    split
    · exact ⟨h, hk, rfl⟩
    · exact ⟨gpuCoherent_fresh _ _ _, fun _ => ⟨rfl, rfl⟩, rfl⟩

/-- **C55** (queries).  No sequence of queries, answered or refused, changes the factors or their element type; and
every one of them is answered as by a model that has the same factors and no caches. -/
theorem C55_queries (env : GpuModelEnv f R) (st : GpuState f R) (hst : GpuCoherent env st) (qs : List (GpuAsk R)) :
    (gpuAsks env st qs).2.half = st.half ∧ (gpuAsks env st qs).2.user = st.user ∧
      (gpuAsks env st qs).2.item = st.item ∧ GpuCoherent env (gpuAsks env st qs).2 ∧
      (gpuAsks env st qs).1 = qs.map fun q => (gpuAsk env (freshGpu st.half ⟨st.user, st.item⟩) q).1 := by
  induction qs generalizing st with
  | nil => exact ⟨rfl, rfl, rfl, hst, rfl⟩
  | cons q qs ih =>
    obtain ⟨hh, hu, hi⟩ := gpuAsk_same env st q
    obtain ⟨a, b, c, d, e⟩ := ih (gpuAsk env st q).2 (gpuAsk_coherent hst q)
    refine ⟨a.trans hh, b.trans hu, c.trans hi, d, ?_⟩
    show (gpuAsk env st q).1 :: (gpuAsks env (gpuAsk env st q).2 qs).1 = _
    rw [e, hh, hu, hi, List.map_cons]
    congr 1
    exact gpuAsk_agree hst (gpuCoherent_fresh _ _ _) ⟨rfl, rfl, rfl⟩ q

/-- **C55** (histories).  After any careful sequence of operations on an ALS or BPR model, whether they return or
raise, every cache that will be used belongs to the current factors. -/
theorem C55_history_partial (env : GpuModelEnv f R) (half : Bool) (init : Factors f R) (ops : List (GpuOp f R))
    (hops : ∀ op ∈ ops, op.careful half) (st : GpuState f R)
    (hrun : gpuRun env (freshGpu half init) ops = some st) : GpuCoherent env st := by
  have key : ∀ (ops : List (GpuOp f R)) (st0 st : GpuState f R), GpuCoherent env st0 → KindOk env st0 →
      (∀ op ∈ ops, op.careful st0.half) → gpuRun env st0 ops = some st → GpuCoherent env st := by
    intro ops
    induction ops with
    | nil => intro st0 st h _ _ hrun; cases hrun; exact h
    | cons op ops ih =>
      intro st0 st h hk hops hrun
      unfold gpuRun at hrun
      split at hrun
      · cases hrun
      · rename_i hub
        obtain ⟨a, b, c⟩ := gpuOp_invariant h hk (hops op (by simp)) (by simpa using hub)
        exact ih _ _ a b (fun o ho => by rw [c]; exact hops o (List.mem_cons_of_mem _ ho)) hrun
  exact key ops _ st (gpuCoherent_fresh _ _ _) (fun _ => ⟨rfl, rfl⟩) hops hrun

/-- **C55** (answers).  After such a history every query is answered as by a model that has the current factors and
no caches. -/
theorem C55_answers_partial (env : GpuModelEnv f R) (half : Bool) (init : Factors f R) (ops : List (GpuOp f R))
    (hops : ∀ op ∈ ops, op.careful half) (st : GpuState f R)
    (hrun : gpuRun env (freshGpu half init) ops = some st) (q : GpuAsk R) :
    (gpuAsk env st q).1 = (gpuAsk env (freshGpu st.half ⟨st.user, st.item⟩) q).1 :=
  gpuAsk_agree (C55_history_partial env half init ops hops st hrun) (gpuCoherent_fresh _ _ _) ⟨rfl, rfl, rfl⟩ q

/-- **C55** (the values themselves): after such a history the norms (on the device and on the host) and the
regularised Gram matrices used by the queries are those of the current factors. -/
theorem C55_values_partial (env : GpuModelEnv f R) (half : Bool) (init : Factors f R) (ops : List (GpuOp f R))
    (hops : ∀ op ∈ ops, op.careful half) (st : GpuState f R)
    (hrun : gpuRun env (freshGpu half init) ops = some st) :
    let norms : List (Vec f R) → List R := List.map fun x => if env.norm x = 0 then env.eps else env.norm x
    let gramOf : List (Vec f R) → Mat f R := fun l a b =>
      (l.map fun y => y a * y b).sum + if a = b then env.p.regularization else 0
    (gpuUserNorms env st).userNorms = some (norms st.user) ∧
      (gpuUserNorms env st).userNormsHost = some (norms st.user) ∧
      (gpuItemNorms env st).itemNorms = some (norms st.item) ∧
      (gpuItemNorms env st).itemNormsHost = some (norms st.item) ∧
      (gpuYtY env st).1 = gramOf st.item ∧ (gpuXtX env st).1 = gramOf st.user := by
  have h := C55_history_partial env half init ops hops st hrun
  have hreg : ∀ l : List (Vec f R), regularised (gram l) env.p.regularization = fun a b =>
      (l.map fun y => y a * y b).sum + if a = b then env.p.regularization else 0 := by
    intro l
    funext a b
    unfold regularised gram
    split <;> simp
  exact ⟨(gpuUserNorms_eq h).1, (gpuUserNorms_eq h).2, (gpuItemNorms_eq h).1, (gpuItemNorms_eq h).2,
    (gpuYtY_fst h).trans (hreg _), (gpuXtX_fst h).trans (hreg _)⟩

/-- **C55** (what the queries compute).  From coherent caches `similar_items` and `similar_users` are the functions
of C53 applied to the norms of the current factors, and a recalculation is the function of C54. -/
theorem C55_link (env : GpuModelEnv f R) (st : GpuState f R) (hst : GpuCoherent env st) (ids : Ids) (N cols : Nat)
    (fi : Option PyFilter) (items : Option (List Int)) (rows : SpRows R) :
    (gpuAsk env st (.similarItems ids N fi items)).1 =
        (gpuSimilar env.knn st.item (safeNorms env.norm env.eps st.item) ids N fi items).map .answer ∧
      (gpuAsk env st (.similarUsers ids N fi items)).1 =
        (gpuSimilar env.knn st.user (safeNorms env.norm env.eps st.user) ids N fi items).map .answer ∧
      (env.kind = .als → (∃ row ∈ rows, row ≠ []) →
        (gpuAsk env st (.recalculateUser ids cols rows)).1 =
          (gpuRecalculateUser env.tol env.p (regularised (gram st.item) env.p.regularization) st.item ids.count cols
            rows).map .vectors) := by
  have both : ∀ (l : List (Vec f R)) (n : List R),
      gpuSimilarBoth env.knn l (some n) (some n) ids N fi items = gpuSimilar env.knn l n ids N fi items := by
    intro l n
    unfold gpuSimilarBoth gpuSimilar
    cases items <;> rfl
  refine ⟨?_, ?_, ?_⟩
  · simp only [gpuAsk]
    rw [(gpuItemNorms_eq hst).1, (gpuItemNorms_eq hst).2, (gpuItemNorms_same env st).2.2, both]
  · simp only [gpuAsk]
    rw [(gpuUserNorms_eq hst).1, (gpuUserNorms_eq hst).2, (gpuUserNorms_same env st).2.1, both]
  · intro hk ⟨row, hr, hne⟩
    simp only [gpuAsk]
    rw [gpuRecalcUser_fst hst, hk]
    simp only
    rw [if_neg]
    intro hall
    have := List.all_eq_true.mp hall row hr
    cases row with
    | nil => exact hne rfl
    | cons => cases this

/-! ## Where it fails, and examples -/

/-- One factor; the norm is the absolute value. -/
def c55Env (kind : GpuKind) : GpuModelEnv 1 Rat :=
  ⟨kind, testEnv, fun v => |v 0|, 1 / 10 ^ 10, 1 / 10 ^ 20, ⟨1, 1, 3, 2⟩⟩

/-- `similar_items(0, N=2)`. -/
def c55Query : GpuAsk Rat := .similarItems (.one 0) 2 none none

/-- **C55 is violated** by a query made from the callback of `fit`: `similar_items` keeps using the norms of the
first epoch, for ALS and BPR models. -/
theorem C55_callback_violated : ∀ kind,
    (gpuRun (c55Env kind) (freshGpu false ⟨[![1]], [![1], ![1]]⟩)
        [.fit c10Train (fun i => if i = 0 then [c55Query] else []) ⟨[], []⟩ 2]).map
      (fun st => (listOf (gpuAsk (c55Env kind) st c55Query).1,
        listOf (gpuAsk (c55Env kind) (freshGpu false ⟨st.user, st.item⟩) c55Query).1)) =
    some (some [(0, 4), (1, 1 / 2)], some [(0, 1), (1, 1)]) := by
  intro kind
  cases kind <;> decide +kernel

/-- The same for the Gram matrix used by `recalculate_user`. -/
theorem C55_callback_gram_violated :
    (gpuRun (c55Env .als) (freshGpu false ⟨[![1]], [![1], ![1]]⟩)
        [.fit c10Train (fun i => if i = 0 then [.recalculateUser (.one 0) 2 [[(0, 1)]]] else []) ⟨[], []⟩ 2]).map
      (fun st => ((gpuYtY (c55Env .als) st).1 0 0, gram st.item 0 0 + 1)) = some (18, 6) := by
  decide +kernel

/-- **C55 is violated** by a half precision model: `partial_fit_items` for a new item raises, but the item is in the
model afterwards, and the norms cached before do not cover it: `similar_items` about it reads beyond the norms (on the
device, and then `IndexError` from numpy) instead of answering as a model with these factors does. -/
theorem C55_half_violated :
    let st0 : GpuState 1 Rat := freshGpu true ⟨[![1]], [![1], ![1]]⟩
    let ops : List (GpuOp 1 Rat) := [.query c55Query, .partialFitItems [] [2] 1 [[(0, 1)]]]
    let q : GpuAsk Rat := .similarItems (.one 2) 1 none none
    (gpuRun (c55Env .als) st0 ops).map (fun st => (st.item, (gpuAsk (c55Env .als) st q).1.toOption.isSome,
      (gpuAsk (c55Env .als) (freshGpu true ⟨st.user, st.item⟩) q).1.toOption.isSome)) =
      some ([![1], ![1], ![0]], false, true) := by
  decide +kernel

/-- A careful history of a BPR model: the norms left on the host by the first `fit` do no harm. -/
example : (gpuRun (c55Env .bpr) (freshGpu false ⟨[![1]], [![1], ![1]]⟩)
      [.fit c10Train (fun _ => []) ⟨[], []⟩ 1, .query c55Query,
        .fit (fun i => c10Train (i + 1)) (fun _ => []) ⟨[], []⟩ 1]).map
    (fun st => (st.itemNormsHost, listOf (gpuAsk (c55Env .bpr) st c55Query).1)) =
      some (some [1, 4], some [(0, 1), (1, 1)]) := by
  decide +kernel

/-- A careful history with all kinds of operations that ends without undefined behaviour, with a Gram matrix that
survived pickling. -/
example :
    let ops : List (GpuOp 1 Rat) :=
      [.fit c10Train (fun _ => [.recommend (.one 0) 2 none 2 false none false none]) ⟨[], []⟩ 2, .query c55Query,
        .partialFitItems [(1, 0), (0, 0)] [1, 3] 1 [[(0, 2)], [(0, 1)]], .query c55Query, .viaCpu,
        .partialFitUsers [(0, 0)] [0] 4 [[(1, 1)]], .pickle]
    (∀ op ∈ ops, op.careful false) ∧
      (gpuRun (c55Env .als) (freshGpu false ⟨[![1]], [![1], ![1]]⟩) ops).map
        (fun st => (st.item, st.YtY.map fun G => G 0 0)) =
      some ([![2], ![2 / 3], ![0], ![1 / 2]], some (4 + 4 / 9 + 1 / 4 + 1)) := by
  constructor
  · simp [GpuOp.careful, GpuAsk.plain]
  · decide +kernel

end Implicit
