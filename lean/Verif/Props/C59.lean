import Verif.Lemmas.AnnFit
import Verif.Lemmas.Solver
import Mathlib.Data.List.Sort

/-!
# C59 — approximate models answer from the factors of the wrapped model

The libraries are assumed exact here (`Spec.NearestLabelled`, `Spec.LargestLabelled`); what is proved is that the indexes
hold what the queries assume, at every point of a history of fits, queries and uses of the wrapped model.
-/

set_option linter.unusedSectionVars false

namespace Implicit

variable {f : Nat}

/-- The distance each library computes. -/
noncomputable def Spec.annDistance (kind : AnnKind) {n : Nat} : Vec n ℝ → Vec n ℝ → ℝ :=
  match kind with
  | .annoy => Spec.angularDistance
  | .nmslib => Spec.cosineDistance

/-- Exact norms and an exact library. -/
structure Spec.ExactAnn (kind : AnnKind) (E : AnnEnv f) : Prop where
  norm : ∀ n, E.norm n = l2norm
  search : ∀ n idx, Spec.NearestLabelled (Spec.annDistance kind) idx (E.search n idx)

/-- Exact norms and an exact Faiss. -/
structure Spec.ExactFaiss (E : AnnEnv f) : Prop where
  norm : ∀ n, E.norm n = l2norm
  envNorm : E.env.norm = l2norm
  search : ∀ n idx, Spec.LargestLabelled (fun x y => ∑ j, x j * y j) E.env.neginf idx (E.search n idx)

theorem recommend_synced {kind : AnnKind} {E : AnnEnv f} (hE : Spec.ExactAnn kind E)
    (hflag : E.approximateRecommend = true) {s : AnnState f (f + 1)} (hs : AnnSynced kind E s) {u : Nat}
    {user : Vec f ℝ} (hu : s.inner.user[u]? = some user) (liked : List (Nat × ℝ)) (N : Nat) (fl : Bool)
    (fi : Option PyFilter) (hfi : ListFilter fi) :
    ∃ out, annRecommendOn kind E s ⟨.one u, some [liked], N, fl, fi, false, none⟩ = (.ok (.one (intRow out)), s.inner) ∧
      Spec.IsRanking N (fun i => i < s.inner.item.length ∧ i ∉ banned fl liked fi)
        (fun i => (s.inner.item[i]?).map fun y => ∑ j, user j * y j) out := by
  obtain ⟨mx, ext, haug, hmx, hidx⟩ := hs.recommend hflag
  rw [hE.norm] at haug
  have hsearch := nearest_numbered (hE.search (f + 1) (numbered ext))
  unfold annRecommendOn withIndex
  simp only [hidx, hmx, Option.getD_some, hE.norm, hflag]
  cases kind with
  | annoy =>
    exact C41_annoy_recommend E.env s.inner mx ext haug _ hsearch u user hu liked N fl fi hfi
  | nmslib =>
    exact C41_nmslib_recommend E.env s.inner mx ext haug _ hsearch u user hu liked N fl fi hfi

/-- **C59** (Annoy and NMSLib, `recommend`).  After a successful `fit`, however the model is used and refitted afterwards
(see `AnnKeeps`), an exact library makes `recommend` return the `N` best items that are not filtered, with their inner
products with the user's factor, all according to the present factors of the wrapped model. -/
theorem C59_recommend (kind : AnnKind) (E : AnnEnv f) (hE : Spec.ExactAnn kind E)
    (hflag : E.approximateRecommend = true) (st : AnnState f (f + 1)) (inner : InnerFit f)
    (hfit : (annFit kind E inner st).1 = .ok ()) (ops : List (AnnOp f))
    (hk : AnnKeepsAll kind E (annFit kind E inner st).2 ops) (u : Nat) (user : Vec f ℝ) (liked : List (Nat × ℝ))
    (N : Nat) (fl : Bool) (fi : Option PyFilter) (hfi : ListFilter fi) :
    let s := ops.foldl (annStep kind E) (annFit kind E inner st).2
    s.inner.user[u]? = some user →
    ∃ out, annRecommendOn kind E s ⟨.one u, some [liked], N, fl, fi, false, none⟩ = (.ok (.one (intRow out)), s.inner) ∧
      Spec.IsRanking N (fun i => i < s.inner.item.length ∧ i ∉ banned fl liked fi)
        (fun i => (s.inner.item[i]?).map fun y => ∑ j, user j * y j) out :=
  fun hu => recommend_synced hE hflag (annSteps_synced ops (annFit_synced hfit) hk) hu liked N fl fi hfi

theorem partialFitUsers_item (env : Env f ℝ) (st : MFState f ℝ) (ids : List Nat) (rows : SpRows ℝ) :
    (partialFitUsers env st ids rows).2.item = st.item := by
  unfold partialFitUsers
  split_ifs
  · rfl
  · have h := recalculateUser_same env st (.many ids) rows
    rcases hr : recalculateUser env st (.many ids) rows with ⟨r, st'⟩
    rw [hr] at h
    cases r with
    | error e => exact h.2
    | ok xs =>
      simp only
      cases pyMax ids <;> exact h.2

/-- **C59** (use of the wrapped model): its queries and `partial_fit_users` are among the operations allowed in the
histories, in any state. -/
theorem C59_allowed (kind : AnnKind) (E : AnnEnv f) (s : AnnState f (f + 1)) (q : Query f ℝ) (ids : List Nat)
    (rows : SpRows ℝ) :
    AnnKeeps kind E s (.onModel (.query q)) ∧ AnnKeeps kind E s (.onModel (.partialFitUsers ids rows)) :=
  ⟨(runQuery_same E.env s.inner q).2, partialFitUsers_item E.env s.inner ids rows⟩

theorem annoy_mono {n : Nat} (q : Vec n ℝ) (y z : Vec n ℝ)
    (h : Spec.angularDistance q z ≤ Spec.angularDistance q y) :
    1 - Spec.angularDistance q y ^ 2 / 2 ≤ 1 - Spec.angularDistance q z ^ 2 / 2 := by
  have h1 : (0 : ℝ) ≤ Spec.angularDistance q z := Real.sqrt_nonneg _
  have := pow_le_pow_left₀ h1 h 2
  linarith

theorem annoy_cosine {n : Nat} (q y : Vec n ℝ) : 1 - Spec.angularDistance q y ^ 2 / 2 = Spec.cosine q y := by
  have := annoyScore_eq 1 q y
  unfold annoyScore at this
  linarith

/-- **C59** (Annoy, `similar_items` without filter): the items most similar by cosine, according to the present factors.
Missing: `filter_items`, see `C42_annoy_similar_violated`. -/
theorem C59_annoy_similar_partial (E : AnnEnv f) (hE : Spec.ExactAnn .annoy E) (hflag : E.approximateSimilar = true)
    (st : AnnState f (f + 1)) (inner : InnerFit f) (hfit : (annFit .annoy E inner st).1 = .ok ()) (ops : List (AnnOp f))
    (hk : AnnKeepsAll .annoy E (annFit .annoy E inner st).2 ops) (i : Nat) (v : Vec f ℝ) (N : Nat) :
    let s := ops.foldl (annStep .annoy E) (annFit .annoy E inner st).2
    s.inner.item[i]? = some v →
    ∃ out, annSimilarOn .annoy E s ⟨.one i, N, false, none, none, none⟩ = (.ok (.one (intRow out)), s.inner) ∧
      Spec.IsRanking N (fun j => j < s.inner.item.length) (fun j => (s.inner.item[j]?).map (Spec.cosine v)) out := by
  intro s hv
  have hs : AnnSynced .annoy E s := annSteps_synced ops (annFit_synced hfit) hk
  obtain ⟨out, h1, h2⟩ := nearest_ranking (hE.search f (similarEntries .annoy E s.inner.item)) v N
    (fun d => 1 - d ^ 2 / 2) (annoy_mono v)
  refine ⟨out, ?_, ?_⟩
  · unfold annSimilarOn withIndex
    simp only [hs.similar hflag, hflag]
    have hf : annItemFactors E.env s.inner (.one i) false none = (.ok [v], s.inner) := by
      unfold annItemFactors
      rw [if_neg (by simp), show (Ids.one i).toList = [i] from rfl, gather_one hv]
    simp only [annoySimilar, Option.isSome_none, Bool.false_and, Bool.false_eq_true, if_false, Bool.not_true,
      annoySimilarOne, hf, Option.map_none, annFilter]
    rw [h1]
    rfl
  · have h3 : ∀ j, Spec.stored (similarEntries .annoy E s.inner.item) j = s.inner.item[j]? := stored_numbered _
    simp only [h3] at h2
    have h4 := h2.congrScore (score' := fun j => (s.inner.item[j]?).map (Spec.cosine v)) fun j _ => by
      cases s.inner.item[j]? with
      | none => rfl
      | some y => exact congrArg some (annoy_cosine v y)
    simpa using h4

/-- **C59** (NMSLib, `similar_items`): the most similar items among those with a non-zero factor that are not filtered,
according to the present factors.  Missing: the items with zero factors, see `C59_nmslib_zero_violated`. -/
theorem C59_nmslib_similar_partial (E : AnnEnv f) (hE : Spec.ExactAnn .nmslib E) (hflag : E.approximateSimilar = true)
    (st : AnnState f (f + 1)) (inner : InnerFit f) (hfit : (annFit .nmslib E inner st).1 = .ok ())
    (ops : List (AnnOp f)) (hk : AnnKeepsAll .nmslib E (annFit .nmslib E inner st).2 ops) (i : Nat) (v : Vec f ℝ)
    (N : Nat) (fi : Option PyFilter) :
    let s := ops.foldl (annStep .nmslib E) (annFit .nmslib E inner st).2
    s.inner.item[i]? = some v →
    ∃ out, annSimilarOn .nmslib E s ⟨.one i, N, false, none, fi, none⟩ = (.ok (.one (intRow out)), s.inner) ∧
      Spec.IsRanking N (fun j => (∃ y, s.inner.item[j]? = some y ∧ y ≠ 0) ∧ j ∉ (fi.map PyFilter.ids).getD [])
        (fun j => (s.inner.item[j]?).map (Spec.cosine v)) out := by
  intro s hv
  have hs : AnnSynced .nmslib E s := annSteps_synced ops (annFit_synced hfit) hk
  obtain ⟨out0, h1, h2⟩ := nearest_ranking (hE.search f (similarEntries .nmslib E s.inner.item)) v (annCount N fi)
    (fun d => 1 - d) (fun y z h => by linarith)
  have h3 : ∀ j, Spec.stored (similarEntries .nmslib E s.inner.item) j =
      (s.inner.item[j]?).filter fun y => decide (E.norm f y ≠ 0) := by
    intro j
    rw [← stored_numbered]
    exact stored_filter _ (nodup_numbered _) (fun y => decide (E.norm f y ≠ 0)) j
  have h4 : Spec.IsRanking (N + ((fi.map PyFilter.ids).getD []).length)
      (fun j => ∃ y, s.inner.item[j]? = some y ∧ y ≠ 0) (fun j => (s.inner.item[j]?).map (Spec.cosine v)) out0 := by
    have e : annCount N fi = N + ((fi.map PyFilter.ids).getD []).length := by
      unfold annCount
      cases fi <;> rfl
    rw [← e]
    have hel : (fun j => (Spec.stored (similarEntries .nmslib E s.inner.item) j).isSome = true) =
        fun j => ∃ y, s.inner.item[j]? = some y ∧ y ≠ 0 := by
      funext j
      rw [h3, hE.norm]
      cases s.inner.item[j]? with
      | none => simp
      | some y => simp [Option.filter, l2norm_eq_zero]
    rw [hel] at h2
    refine h2.congrScore fun j hj => ?_
    obtain ⟨y, hy, hy0⟩ := hj
    rw [h3, hE.norm, hy]
    have : l2norm y ≠ 0 := fun h => hy0 ((l2norm_eq_zero y).mp h)
    simp only [Option.filter, ne_eq, this, not_false_eq_true, decide_true, if_true, Option.map_some,
      Option.some.injEq]
    show 1 - (1 - Spec.cosine v y) = _
    ring
  obtain ⟨out, h5, h6⟩ := annFilter_ranking (g := fun d => 1 - d) (fi.map PyFilter.ids) h1 h4
  refine ⟨out, ?_, h6⟩
  unfold annSimilarOn withIndex
  simp only [hs.similar hflag, hflag]
  have hf : annItemFactors E.env s.inner (.one i) false none = (.ok [v], s.inner) := by
    unfold annItemFactors
    rw [if_neg (by simp), show (Ids.one i).toList = [i] from rfl, gather_one hv]
  simp only [nmslibSimilar, Bool.not_true, Bool.false_eq_true, if_false, Option.isSome_none, hf, Prod.mk.injEq,
    Except.ok.injEq, AnnAnswer.one.injEq, and_true]
  rw [← h5]
  cases fi with
  | none => rfl
  | some p =>
    show filterResults _ _ _ = (filterResults _ _ _).map _
    rw [filterResults_map]

/-! ## Faiss -/

/-- **C59** (Faiss, `recommend`): as for the other two, provided that enough items remain and that no `similar_items` for
a single item came in between (`NotScalar`). -/
theorem C59_faiss_recommend_partial (E : AnnEnv f) (hE : Spec.ExactFaiss E) (nlist : Nat)
    (hflag : E.approximateRecommend = true) (st : AnnState f f) (inner : InnerFit f)
    (hfit : (faissFit E nlist inner st).1 = .ok ()) (ops : List (AnnOp f))
    (hk : FaissKeepsAll (NotScalar E) E nlist (faissFit E nlist inner st).2 ops) (u : Nat) (user : Vec f ℝ)
    (liked : List (Nat × ℝ)) (N : Nat) (fl : Bool) (fi : Option PyFilter) (hfi : ListFilter fi) :
    let s := ops.foldl (faissStep E nlist) (faissFit E nlist inner st).2
    s.inner.user[u]? = some user → N + (banned fl liked fi).length ≤ s.inner.item.length →
    ∃ out, faissRecommendOn E s ⟨.one u, some [liked], N, fl, fi, false, none⟩ = (.ok (.one (intRow out)), s.inner) ∧
      Spec.IsRanking N (fun i => i < s.inner.item.length ∧ i ∉ banned fl liked fi)
        (fun i => (s.inner.item[i]?).map fun y => ∑ j, user j * y j) out := by
  intro s hu hN
  have hs : FaissRecommendSynced E s := FaissRecommendSynced.steps ops (faissFit_synced hfit).1 hk
  have hl : annLikes fl (some [liked]) = .ok (if fl then some (liked.map Prod.fst) else none) := by
    cases fl <;> rfl
  obtain ⟨count, filter, hp, h1, h2⟩ := annPlan_list (N := N) hfi (if fl then some (liked.map Prod.fst) else none)
  have hb : filter.getD [] = banned fl liked fi := by
    rw [h1]
    unfold banned
    cases fl <;> rfl
  obtain ⟨out0, h3, h4⟩ := hE.search f (numbered s.inner.item) user count
  have hcount : count - (numbered s.inner.item).length = 0 := by
    rw [length_numbered, h2, hb]
    omega
  rw [hcount, List.replicate_zero, List.append_nil] at h3
  simp only [stored_numbered] at h4
  rw [h2] at h4
  obtain ⟨out, h5, h6⟩ := annFilter_ranking (g := id) (answer := E.search f (numbered s.inner.item) user count)
    filter (by rw [h3]; simp [intRow]) h4
  refine ⟨out, ?_, by rw [← hb]; simpa using h6⟩
  unfold faissRecommendOn withIndex
  simp only [hs hflag, hflag, faissRecommend, Option.isNone_some, Bool.and_false, Bool.false_eq_true, if_false,
    Option.isSome_none, Bool.false_and, faissRecommendOne, Bool.not_true]
  unfold faissRecommendDirect
  simp only [Bool.false_eq_true, if_false, show (Ids.one u).toList = [u] from rfl, gather_one hu, hl, hp,
    bind, Except.bind, pure, Except.pure, Bool.false_and]
  simp only [Prod.mk.injEq, Except.ok.injEq, AnnAnswer.one.injEq, and_true]
  rw [← h5]
  simp

theorem dot_normalized {v : Vec f ℝ} (hv : v ≠ 0) (y : Vec f ℝ) (eps : ℝ) :
    (∑ j, normalizeVec l2norm v j * (y j / (if l2norm y = 0 then eps else l2norm y))) = Spec.cosine v y := by
  unfold Spec.cosine
  by_cases hy : y = 0
  · subst hy
    simp
  · have h1 : l2norm y ≠ 0 := (l2norm_pos hy).ne'
    have h2 : l2norm v ≠ 0 := (l2norm_pos hv).ne'
    rw [if_neg h1, if_neg (not_or.mpr ⟨hv, hy⟩), ← l2norm_eq, ← l2norm_eq, Finset.sum_div]
    refine Finset.sum_congr rfl fun j _ => ?_
    unfold normalizeVec
    field_simp

/-- **C59** (Faiss, `similar_items`): the most similar items by cosine according to the present factors, provided that the
item asked for has a non-zero factor and enough items remain.  Earlier `similar_items` for single items do no harm here:
they only rescale factors. -/
theorem C59_faiss_similar_partial (E : AnnEnv f) (hE : Spec.ExactFaiss E) (nlist : Nat)
    (hflag : E.approximateSimilar = true) (st : AnnState f f) (inner : InnerFit f)
    (hfit : (faissFit E nlist inner st).1 = .ok ()) (ops : List (AnnOp f))
    (hk : FaissKeepsAll NotZeroItem E nlist (faissFit E nlist inner st).2 ops) (i : Nat) (v : Vec f ℝ) (hv0 : v ≠ 0)
    (N : Nat) (fi : Option PyFilter) :
    let s := ops.foldl (faissStep E nlist) (faissFit E nlist inner st).2
    s.inner.item[i]? = some v → N + ((fi.map PyFilter.ids).getD []).length ≤ s.inner.item.length →
    ∃ out, (faissSimilarOn E s ⟨.one i, N, false, none, fi, none⟩).1 = .ok (.one (intRow out)) ∧
      Spec.IsRanking N (fun j => j < s.inner.item.length ∧ j ∉ (fi.map PyFilter.ids).getD [])
        (fun j => (s.inner.item[j]?).map (Spec.cosine v)) out := by
  intro s hv hN
  have hs : FaissSimilarSynced E s :=
    FaissSimilarSynced.steps (hE.norm f) hE.envNorm ops (faissFit_synced hfit).2 hk
  obtain ⟨out0, h1, h2⟩ := hE.search f (numbered (faissNormalized E s.inner.item)) (normalizeVec l2norm v)
    (annCount N fi)
  have e : annCount N fi = N + ((fi.map PyFilter.ids).getD []).length := by
    unfold annCount
    cases fi <;> rfl
  have hlen : (faissNormalized E s.inner.item).length = s.inner.item.length := by simp [faissNormalized]
  rw [length_numbered, hlen, show annCount N fi - s.inner.item.length = 0 by omega, List.replicate_zero,
    List.append_nil] at h1
  simp only [stored_numbered] at h2
  have h3 : Spec.IsRanking (N + ((fi.map PyFilter.ids).getD []).length) (fun j => j < s.inner.item.length)
      (fun j => (s.inner.item[j]?).map (Spec.cosine v)) out0 := by
    rw [← e]
    have hel : (fun j => (faissNormalized E s.inner.item)[j]?.isSome = true) = fun j => j < s.inner.item.length := by
      funext j
      simp [hlen]
    rw [hel] at h2
    refine h2.congrScore fun j _ => ?_
    unfold faissNormalized
    rw [List.getElem?_map, hE.norm]
    cases s.inner.item[j]? with
    | none => rfl
    | some y =>
      simp only [Option.map_some, Option.some.injEq]
      exact dot_normalized hv0 y _
  obtain ⟨out, h4, h5⟩ := annFilter_ranking (g := id)
    (answer := E.search f (numbered (faissNormalized E s.inner.item)) (normalizeVec l2norm v) (annCount N fi))
    (fi.map PyFilter.ids) (by rw [h1]; simp [intRow]) h3
  refine ⟨out, ?_, h5⟩
  unfold faissSimilarOn withIndex
  have hf : annItemFactors E.env s.inner (.one i) false none = (.ok [v], s.inner) := by
    unfold annItemFactors
    rw [if_neg (by simp), show (Ids.one i).toList = [i] from rfl, gather_one hv]
  simp only [hs hflag, hflag, faissSimilar, Option.isSome_none, Bool.false_and, Bool.false_eq_true, if_false,
    Bool.not_true, Bool.or_false, hf, hE.envNorm]
  rw [← h4]
  simp

/-! ## Failures -/

/-- **C59** (before `fit`): a model whose index does not exist never answers. -/
theorem C59_unfitted (kind : AnnKind) (E : AnnEnv f) (s : AnnState f (f + 1)) (t : AnnState f f) :
    (E.approximateRecommend = true → s.recommendIndex = none → ∀ a, ∃ e, (annRecommendOn kind E s a).1 = .error e) ∧
      (E.approximateSimilar = true → s.similarIndex = none → ∀ a, ∃ e, (annSimilarOn kind E s a).1 = .error e) ∧
      (E.approximateRecommend = true → t.recommendIndex = none → ∀ a, ∃ e, (faissRecommendOn E t a).1 = .error e) ∧
      (E.approximateSimilar = true → t.similarIndex = none → ∀ a, ∃ e, (faissSimilarOn E t a).1 = .error e) := by
  have key : ∀ {α : Type} {n : Nat} (query : (Vec n ℝ → Nat → List (Int × ℝ)) → Except Err α × MFState f ℝ),
      ∃ e, (withIndex E none true query).1 = .error e := by
    intro α n query
    unfold withIndex
    rcases hr : query fun _ _ => [] with ⟨r, st'⟩
    cases r with
    | error e => exact ⟨e, rfl⟩
    | ok a => exact ⟨.attributeError, rfl⟩
  refine ⟨?_, ?_, ?_, ?_⟩
  · intro h1 h2 a
    unfold annRecommendOn
    rw [h2, h1]
    exact key _
  · intro h1 h2 a
    unfold annSimilarOn
    rw [h2, h1]
    exact key _
  · intro h1 h2 a
    unfold faissRecommendOn
    rw [h2, h1]
    exact key _
  · intro h1 h2 a
    unfold faissSimilarOn
    rw [h2, h1]
    exact key _

/-- **C59** (failed `fit`): the wrapped model's exception is passed on, and the indexes stay as they are. -/
theorem C59_failed_fit (kind : AnnKind) (E : AnnEnv f) (nlist : Nat) (inner : InnerFit f) (s : AnnState f (f + 1))
    (t : AnnState f f) (e : Err) :
    ((inner s.inner).1 = .error e → annFit kind E inner s = (.error e, { s with inner := (inner s.inner).2 })) ∧
      ((inner t.inner).1 = .error e →
        faissFit E nlist inner t = (.error e, { t with inner := (inner t.inner).2 })) := by
  constructor
  · intro h
    unfold annFit
    rcases hr : inner s.inner with ⟨r, m⟩
    rw [hr] at h
    simp only at h
    subst h
    rfl
  · intro h
    unfold faissFit
    rcases hr : inner t.inner with ⟨r, m⟩
    rw [hr] at h
    simp only at h
    subst h
    rfl

/-- **C59 is violated** by the Faiss model for catalogues with fewer items than `nlist` (400 by default): `fit` trains the
wrapped model, then raises `RuntimeError` and leaves the indexes of the previous catalogue in place. -/
theorem C59_faiss_small_violated (E : AnnEnv f) (nlist : Nat) (inner : InnerFit f) (t : AnnState f f)
    (hok : (inner t.inner).1 = .ok ()) (hsmall : (inner t.inner).2.item.length < nlist)
    (hflag : E.approximateRecommend = true ∨ E.approximateSimilar = true) :
    faissFit E nlist inner t = (.error .runtimeError, { t with inner := (inner t.inner).2 }) := by
  have h1 : ∀ rows : List (Vec f ℝ), rows.length = (inner t.inner).2.item.length →
      faissTrain nlist rows = .error .runtimeError := by
    intro rows hr
    unfold faissTrain
    rw [if_pos (by omega)]
  unfold faissFit
  have h2 := h1 (inner t.inner).2.item rfl
  have h3 := h1 (faissNormalized E (inner t.inner).2.item) (by simp [faissNormalized])
  rcases hr : inner t.inner with ⟨r, m⟩
  rw [hr] at hok h2 h3
  simp only at hok h2 h3
  subst hok
  cases ha : E.approximateRecommend with
  | true => simp [h2]
  | false =>
    rw [ha] at hflag
    simp only [Bool.false_eq_true, false_or] at hflag
    simp [hflag, h3]

/-! ## Exact libraries exist -/

theorem ranking_exists (L : List Nat) (hL : L.Nodup) (score : Nat → ℝ) (k : Nat) :
    ∃ out, Spec.IsRanking k (fun i => i ∈ L) (fun i => some (score i)) out := by
  have base : Spec.IsRanking (L.length + k) (fun i => i ∈ L) (fun i => some (score i))
      ((L.map fun i => (i, score i)).insertionSort fun a b => b.2 ≤ a.2) := by
    have : Std.Total fun a b : Nat × ℝ => b.2 ≤ a.2 := ⟨fun a b => le_total _ _⟩
    have : IsTrans (Nat × ℝ) fun a b => b.2 ≤ a.2 := ⟨fun a b c h1 h2 => h2.trans h1⟩
    have hp := List.perm_insertionSort (fun a b : Nat × ℝ => b.2 ≤ a.2) (L.map fun i => (i, score i))
    have hfst : (L.map fun i => (i, score i)).map Prod.fst = L := by simp [Function.comp_def]
    have hall : ∀ i, i ∈ L →
        i ∈ ((L.map fun i => (i, score i)).insertionSort fun a b => b.2 ≤ a.2).map Prod.fst := by
      intro i hi
      rw [(hp.map Prod.fst).mem_iff, hfst]
      exact hi
    refine ⟨?_, ?_, List.pairwise_insertionSort _ _, by simp [hp.length_eq], fun _ i hi => hall i hi,
      fun i s hi _ hni => absurd (hall i hi) hni⟩
    · intro p hp'
      obtain ⟨i, hi, rfl⟩ := List.mem_map.mp (hp.mem_iff.mp hp')
      exact ⟨hi, rfl⟩
    · rw [(hp.map Prod.fst).nodup_iff, hfst]
      exact hL
  exact ⟨_, base.take (Nat.le_add_left k L.length)⟩

theorem stored_isSome {V : Type} (idx : List (Nat × V)) (i : Nat) :
    (Spec.stored idx i).isSome = true ↔ i ∈ (idx.map Prod.fst).dedup := by
  unfold Spec.stored
  rw [Option.isSome_map, List.mem_dedup, List.find?_isSome, List.mem_map]
  simp

theorem labelled_ranking {V : Type} (g : V → ℝ) (idx : List (Nat × V)) (k : Nat) :
    ∃ out, Spec.IsRanking k (fun i => (Spec.stored idx i).isSome) (fun i => (Spec.stored idx i).map g) out := by
  obtain ⟨out, h⟩ := ranking_exists (idx.map Prod.fst).dedup (List.nodup_dedup _)
    (fun i => ((Spec.stored idx i).map g).getD 0) k
  refine ⟨out, ?_⟩
  have e : (fun i => (Spec.stored idx i).isSome = true) = fun i => i ∈ (idx.map Prod.fst).dedup := by
    funext i
    exact propext (stored_isSome idx i)
  rw [e]
  refine h.congrScore fun i hi => ?_
  have := (stored_isSome idx i).mpr hi
  obtain ⟨v, hv⟩ := Option.isSome_iff_exists.mp this
  simp [hv]

theorem nearestLabelled_exists {V : Type} (dist : V → V → ℝ) (idx : List (Nat × V)) :
    ∃ search, Spec.NearestLabelled dist idx search := by
  choose out h using fun (q : V) (k : Nat) => labelled_ranking (fun y => -dist q y) idx k
  refine ⟨fun q k => (out q k).map fun p => ((p.1 : Int), -p.2), fun q k =>
    ⟨(out q k).map fun p => (p.1, -p.2), by simp [Function.comp_def], ?_⟩⟩
  have : ((out q k).map fun p => (p.1, -p.2)).map (fun p => (p.1, -p.2)) = out q k := by
    simp [Function.comp_def]
  rw [this]
  exact h q k

theorem largestLabelled_exists {V : Type} (inner : V → V → ℝ) (lowest : ℝ) (idx : List (Nat × V)) :
    ∃ search, Spec.LargestLabelled inner lowest idx search := by
  choose out h using fun (q : V) (k : Nat) => labelled_ranking (inner q) idx k
  exact ⟨_, fun q k => ⟨out q k, rfl, h q k⟩⟩

/-- A wrapped model's environment with Euclidean norms and any solver. -/
noncomputable def annEnvOf (S : Solver f ℝ) (kind : AnnKind) : AnnEnv f where
  env := ⟨insertionHeap, -1000, l2norm, 1, S, 1, ⟨0, 1, true, false, 3, 15⟩⟩
  norm := fun _ => l2norm
  search := fun _ idx => Classical.choose (nearestLabelled_exists (Spec.annDistance kind) idx)
  approximateSimilar := true
  approximateRecommend := true

theorem annEnvOf_exact (S : Solver f ℝ) (kind : AnnKind) : Spec.ExactAnn kind (annEnvOf S kind) :=
  ⟨fun _ => rfl, fun _ idx => Classical.choose_spec (nearestLabelled_exists (Spec.annDistance kind) idx)⟩

/-- The same for Faiss. -/
noncomputable def faissEnvOf (S : Solver f ℝ) : AnnEnv f where
  env := ⟨insertionHeap, -1000, l2norm, 1, S, 1, ⟨0, 1, true, false, 3, 15⟩⟩
  norm := fun _ => l2norm
  search := fun _ idx => Classical.choose (largestLabelled_exists (fun x y => ∑ j, x j * y j) (-1000) idx)
  approximateSimilar := true
  approximateRecommend := true

theorem faissEnvOf_exact (S : Solver f ℝ) : Spec.ExactFaiss (faissEnvOf S) :=
  ⟨fun _ => rfl, rfl, fun _ idx =>
    Classical.choose_spec (largestLabelled_exists (fun x y => ∑ j, x j * y j) (-1000) idx)⟩

/-! ## Where it fails -/

/-- A wrapped model whose `fit` ends with the given factors. -/
def fitTo (user item : List (Vec f ℝ)) : InnerFit f := fun _ => (.ok (), freshState ⟨user, item⟩)

theorem annRecommendOn_user {kind : AnnKind} {E : AnnEnv f} (hflag : E.approximateRecommend = true)
    {s s' : AnnState f (f + 1)} (hu : s'.inner.user = s.inner.user) (hx : s'.recommendIndex = s.recommendIndex)
    (hm : s'.maxNorm = s.maxNorm) {u : Nat} {liked : List (Nat × ℝ)} {N : Nat} {fl : Bool} {fi : Option PyFilter} :
    (annRecommendOn kind E s' ⟨.one u, some [liked], N, fl, fi, false, none⟩).1 =
      (annRecommendOn kind E s ⟨.one u, some [liked], N, fl, fi, false, none⟩).1 := by
  have key : ∀ search norm mx score, annRecommendOne search norm mx score s'.inner u (some [liked]) N fl fi false =
      annRecommendOne search norm mx score s.inner u (some [liked]) N fl fi false := by
    intro search norm mx score
    unfold annRecommendOne
    rw [hu]
  unfold annRecommendOn withIndex
  rw [hx, hm, hflag]
  cases s.recommendIndex with
  | some idx => simp [annRecommend, key]
  | none =>
    simp only [annRecommend, key, Option.isNone_some, Bool.and_false, Bool.false_eq_true, if_false, Option.isSome_none,
      Bool.false_and, Bool.not_true]
    cases annRecommendOne (fun _ _ => []) (E.norm (f + 1)) (s.maxNorm.getD 0) kind.score s.inner u (some [liked]) N fl fi
      false <;> rfl

theorem annFit_fitTo (kind : AnnKind) (S : Solver f ℝ) (st : AnnState f (f + 1)) (user : List (Vec f ℝ)) (y : Vec f ℝ)
    (ys : List (Vec f ℝ)) :
    (annFit kind (annEnvOf S kind) (fitTo user (y :: ys)) st).1 = .ok () ∧
      (annFit kind (annEnvOf S kind) (fitTo user (y :: ys)) st).2.inner = freshState ⟨user, y :: ys⟩ := by
  constructor <;> rfl

theorem partialFitItems_new (env : Env f ℝ) (st : MFState f ℝ) (hx : st.XtX = none) :
    (partialFitItems env st [st.item.length] [[]]).2.item = st.item ++ [fun _ => 0] ∧
      (partialFitItems env st [st.item.length] [[]]).2.user = st.user := by
  have h : applyAlpha env.p.alpha ([[]] : SpRows ℝ) = [[]] := by
    unfold applyAlpha
    split_ifs <;> rfl
  simp [partialFitItems, recalculateItem, getXtX, hx, h, leastSquaresNative, leastSquaresRow, Ids.count, pyMax, growTo,
    assignRows, List.range_succ, pure, Except.pure, bind, Except.bind]

/-- **C59 is violated** by `model.partial_fit_items` on the wrapped model (there is no such method on the approximate one):
the indexes are not rebuilt.  A new item with a zero factor would be the best for user 0, whose score for the only other
item is -1, but is not recommended. -/
theorem C59_stale_violated (kind : AnnKind) (st : AnnState 1 2) :
    let E := annEnvOf (scalarSolver ℝ) kind
    let s := annStep kind E (annFit kind E (fitTo [![-1]] [![1]]) st).2 (.onModel (.partialFitItems [1] [[]]))
    s.inner.user = [![-1]] ∧ s.inner.item = [![1], fun _ => 0] ∧
      ∃ out, (annRecommendOn kind E s ⟨.one 0, some [[]], 1, false, none, false, none⟩).1 = .ok (.one (intRow out)) ∧
        ¬ Spec.IsRanking 1 (fun i => i < s.inner.item.length)
          (fun i => (s.inner.item[i]?).map fun y => ∑ j, (![-1] : Vec 1 ℝ) j * y j) out := by
  intro E s
  obtain ⟨hitem, huser⟩ : s.inner.item = [![1], fun _ => 0] ∧ s.inner.user = [![-1]] :=
    partialFitItems_new E.env (freshState ⟨[![-1]], [![1]]⟩) rfl
  refine ⟨huser, hitem, ?_⟩
  obtain ⟨out, h1, h2⟩ := C59_recommend kind E (annEnvOf_exact _ _) rfl st (fitTo [![-1]] [![1]])
    (annFit_fitTo _ _ _ _ _ _).1 [] trivial 0 ![-1] [] 1 false none (by intro p hp; cases hp) rfl
  refine ⟨out, ?_, ?_⟩
  · have h3 := annRecommendOn_user (kind := kind) (E := E) rfl
      (s := (annFit kind E (fitTo [![-1]] [![1]]) st).2) (s' := s) huser rfl rfl (u := 0) (liked := []) (N := 1)
      (fl := false) (fi := none)
    rw [h3]
    exact congrArg Prod.fst h1
  · intro h
    rw [hitem] at h
    have hold : (([].foldl (annStep kind E) (annFit kind E (fitTo [![-1]] [![1]]) st).2)).inner.item = [![1]] := rfl
    rw [hold] at h2
    have hmem : ∀ p ∈ out, p.1 = 0 ∧ p.2 = -1 := by
      intro p hp
      obtain ⟨⟨ha, _⟩, hb⟩ := h2.mem p hp
      have h0 : p.1 = 0 := by simpa using ha
      refine ⟨h0, ?_⟩
      rw [h0] at hb
      simpa using hb.symm
    have hne : out ≠ [] := by
      intro he
      have := h2.complete (by simp [he]) 0 ⟨by simp, by simp [banned]⟩
      simp [he] at this
    obtain ⟨p, l, rfl⟩ := List.exists_cons_of_ne_nil hne
    have hbest := h.best 1 0 (by simp) (by simp) (by
      intro hin
      obtain ⟨q, hq, he⟩ := List.mem_map.mp hin
      have := (hmem q hq).1
      omega) p (by simp)
    rw [(hmem p (by simp)).2] at hbest
    linarith

/-- **C59 is violated** by NMSLib `similar_items` for items with a zero factor: they are never returned, even if fewer than
`N` items are. -/
theorem C59_nmslib_zero_violated (st : AnnState 1 2) :
    let E := annEnvOf (scalarSolver ℝ) .nmslib
    let s := (annFit .nmslib E (fitTo [![1]] [![1], ![0]]) st).2
    ∃ out, (annSimilarOn .nmslib E s ⟨.one 0, 2, false, none, none, none⟩).1 = .ok (.one (intRow out)) ∧
      out.length < 2 ∧ s.inner.item.length = 2 := by
  intro E s
  obtain ⟨out, h1, h2⟩ := C59_nmslib_similar_partial E (annEnvOf_exact _ _) rfl st (fitTo [![1]] [![1], ![0]])
    (annFit_fitTo _ _ _ _ _ _).1 [] trivial 0 ![1] 2 none rfl
  refine ⟨out, congrArg Prod.fst h1, ?_, rfl⟩
  have hold : (([].foldl (annStep .nmslib E) (annFit .nmslib E (fitTo [![1]] [![1], ![0]]) st).2)).inner.item =
      [![1], ![0]] := rfl
  have hsub : out.map Prod.fst ⊆ [0] := by
    intro i hi
    obtain ⟨p, hp, rfl⟩ := List.mem_map.mp hi
    obtain ⟨⟨⟨y, hy, hy0⟩, _⟩, _⟩ := h2.mem p hp
    rw [hold] at hy
    match hq : p.1 with
    | 0 => simp
    | 1 =>
      rw [hq] at hy
      simp only [List.getElem?_cons_succ, List.getElem?_cons_zero, Option.some.injEq] at hy
      exact absurd (by rw [← hy]; funext j; simp) hy0
    | n + 2 => rw [hq] at hy; simp at hy
  have := (h2.distinct.subperm hsub).length_le
  simp at this
  omega

theorem faissFit_fitTo (S : Solver f ℝ) (t : AnnState f f) (user : List (Vec f ℝ)) (y : Vec f ℝ)
    (ys : List (Vec f ℝ)) :
    (faissFit (faissEnvOf S) 1 (fitTo user (y :: ys)) t).1 = .ok () ∧
      (faissFit (faissEnvOf S) 1 (fitTo user (y :: ys)) t).2.inner = freshState ⟨user, y :: ys⟩ ∧
      (faissFit (faissEnvOf S) 1 (fitTo user (y :: ys)) t).2.recommendIndex = some (numbered (y :: ys)) := by
  have h : ∀ l : List (Vec f ℝ), l.length = ys.length + 1 → faissTrain 1 l = .ok (numbered l) := by
    intro l hl
    unfold faissTrain
    rw [if_neg (by omega)]
  have h1 := h (y :: ys) rfl
  have h2 := h (faissNormalized (faissEnvOf S) (y :: ys)) (by simp [faissNormalized])
  simp [faissFit, fitTo, faissEnvOf] at *
  simp [h1, h2, freshState]

/-- **C59 is violated** by the Faiss model after `similar_items` for one item: that call normalises the stored factor, so
the recommendation index no longer agrees with it.  Here the factor 2 becomes 1, but `recommend` still reports 2. -/
theorem C59_faiss_stale_violated (t : AnnState 1 1) :
    let E := faissEnvOf (scalarSolver ℝ)
    let s := faissStep E 1 (faissFit E 1 (fitTo [![1]] [![2]]) t).2 (.similarItems ⟨.one 0, 1, false, none, none, none⟩)
    s.inner.item = [![1]] ∧
      ∃ out, (faissRecommendOn E s ⟨.one 0, some [[]], 1, false, none, false, none⟩).1 = .ok (.one (intRow out)) ∧
        out = [(0, 2)] := by
  intro E s
  obtain ⟨h1, h2, h3⟩ := faissFit_fitTo (scalarSolver ℝ) t [![1]] ![2] []
  have hsim : FaissSimilarSynced E (faissFit E 1 (fitTo [![1]] [![2]]) t).2 := (faissFit_synced h1).2
  have hrec : s.recommendIndex = some (numbered [![2]]) := h3
  have hn : l2norm ![2] = 2 := by
    unfold l2norm dot
    rw [show (∑ j, (![2] : Vec 1 ℝ) j * (![2] : Vec 1 ℝ) j) = 2 ^ 2 by simp; norm_num]
    exact Real.sqrt_sq (by norm_num)
  have hwrite : s.inner.item = [![1]] ∧ s.inner.user = [![1]] := by
    show (faissSimilarOn E _ _).2.item = _ ∧ (faissSimilarOn E _ _).2.user = _
    unfold faissSimilarOn withIndex
    rw [hsim rfl]
    simp only [show (faissFit E 1 (fitTo [![1]] [![2]]) t).2.inner = freshState ⟨[![1]], [![2]]⟩ from h2]
    constructor
    · have := C09_faiss_similar_writes E.env (E.search 1 (numbered (faissNormalized E [![2]])))
        (freshState ⟨[![1]], [![2]]⟩) 0 1 none ![2] rfl
      refine this.trans ?_
      show [fun j => (![2] : Vec 1 ℝ) j / l2norm ![2]] = _
      rw [hn]
      congr 1
      funext j
      fin_cases j
      norm_num
    · rfl
  refine ⟨hwrite.1, ?_⟩
  obtain ⟨out, h4, h5⟩ := (faissEnvOf_exact (scalarSolver ℝ)).search 1 (numbered [![2]]) ![1] 1
  refine ⟨out, ?_, ?_⟩
  · have hu : s.inner.user[0]? = some ![1] := by rw [hwrite.2]; rfl
    unfold faissRecommendOn withIndex
    simp only [hrec, show E.approximateRecommend = true from rfl, faissRecommend, faissRecommendOne, faissRecommendDirect,
      annLikes, annPlan, truthyOpt, show (Ids.one 0).toList = [0] from rfl, gather_one hu, bind, Except.bind, pure,
      Except.pure, Bool.or_false, Bool.false_and, Bool.false_eq_true, if_false, Option.isSome_none, Bool.not_true,
      Option.map_none, annFilter]
    rw [h4]
    simp [length_numbered, intRow]
  · simp only [stored_numbered] at h5
    have hmem : ∀ p ∈ out, p = (0, 2) := by
      intro p hp
      obtain ⟨ha, hb⟩ := h5.mem p hp
      have h0 : p.1 = 0 := by simpa using ha
      rw [h0] at hb
      exact Prod.ext h0 (by simpa using hb.symm)
    have hle := h5.atMost
    match out, hmem, hle with
    | [], _, _ =>
      have := h5.complete (by simp) 0 (by simp)
      simp at this
    | [p], hmem, _ => rw [hmem p (by simp)]
    | _ :: _ :: _, _, hle => simp at hle

/-- **C59 is violated** by Faiss when more items are asked for than there are: the answer is filled up with item -1. -/
theorem C59_faiss_padding_violated (E : AnnEnv f) (hE : Spec.ExactFaiss E) (nlist : Nat)
    (hflag : E.approximateRecommend = true) (t : AnnState f f) (inner : InnerFit f)
    (hfit : (faissFit E nlist inner t).1 = .ok ()) (u : Nat) (user : Vec f ℝ) (N : Nat) (rows : Option (SpRows ℝ)) :
    let s := (faissFit E nlist inner t).2
    s.inner.user[u]? = some user → s.inner.item.length < N →
    ∃ row, faissRecommendOn E s ⟨.one u, rows, N, false, none, false, none⟩ = (.ok (.one row), s.inner) ∧
      (-1, E.env.neginf) ∈ row := by
  intro s hu hN
  have hs : FaissRecommendSynced E s := (faissFit_synced hfit).1
  obtain ⟨out, h1, _⟩ := hE.search f (numbered s.inner.item) user N
  refine ⟨E.search f (numbered s.inner.item) user N, ?_, ?_⟩
  · unfold faissRecommendOn withIndex
    simp only [hs hflag, hflag, faissRecommend, faissRecommendOne, faissRecommendDirect, annLikes, annPlan, truthyOpt,
      show (Ids.one u).toList = [u] from rfl, gather_one hu, bind, Except.bind, pure, Except.pure, Bool.or_false,
      Bool.false_and, Bool.false_eq_true, if_false, Option.isSome_none, Bool.not_true, Option.map_none, annFilter]
  · rw [h1, List.mem_append]
    right
    rw [List.mem_replicate, length_numbered]
    exact ⟨by omega, rfl⟩

/-- The theorems apply: fit, recommend, similar items, new users through the wrapped model, fit again with other factors;
then item 1 is best for user 0. -/
example (kind : AnnKind) (st : AnnState 1 2) (a : AnnRecommendArgs) (b : AnnSimilarArgs) :
    let E := annEnvOf (scalarSolver ℝ) kind
    let s := [AnnOp.recommend a, .similarItems b, .onModel (.partialFitUsers [] []),
      .fit (fitTo [![1]] [![2], ![3]])].foldl (annStep kind E) (annFit kind E (fitTo [![1]] [![5], ![1]]) st).2
    ∃ out, annRecommendOn kind E s ⟨.one 0, some [[]], 1, false, none, false, none⟩ =
      (.ok (.one (intRow out)), s.inner) ∧ out = [(1, 3)] := by
  intro E s
  obtain ⟨out, h1, h2⟩ := C59_recommend kind E (annEnvOf_exact _ _) rfl st (fitTo [![1]] [![5], ![1]])
    (annFit_fitTo _ _ _ _ _ _).1 [AnnOp.recommend a, .similarItems b, .onModel (.partialFitUsers [] []),
      .fit (fitTo [![1]] [![2], ![3]])]
    ⟨trivial, trivial, partialFitUsers_item _ _ _ _, Or.inl rfl, trivial⟩ 0 ![1] [] 1 false none
    (by intro p hp; cases hp) rfl
  refine ⟨out, h1, ?_⟩
  have hold : s.inner.item = [![2], ![3]] := rfl
  rw [show ([AnnOp.recommend a, .similarItems b, .onModel (.partialFitUsers [] []),
      .fit (fitTo [![1]] [![2], ![3]])].foldl (annStep kind E) (annFit kind E (fitTo [![1]] [![5], ![1]]) st).2) = s
    from rfl, hold] at h2
  have hle := h2.atMost
  match out, hle with
  | [], _ =>
    have := h2.complete (by simp) 0 ⟨by simp, by simp [banned]⟩
    simp at this
  | _ :: _ :: _, hle => simp at hle
  | [p], _ =>
    obtain ⟨⟨ha, _⟩, hb⟩ := h2.mem p (by simp)
    match hq : p.1 with
    | 0 =>
      have := h2.best 1 3 ⟨by simp, by simp [banned]⟩ (by simp) (by simp [hq]) p (by simp)
      rw [hq] at hb
      simp at hb
      rw [← hb] at this
      norm_num at this
    | 1 =>
      rw [hq] at hb
      simp at hb
      rw [show p = (1, 3) from Prod.ext hq hb.symm]
    | n + 2 => rw [hq] at ha; simp at ha

end Implicit
