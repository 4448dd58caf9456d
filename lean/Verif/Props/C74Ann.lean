import Verif.Model.AnnCalls
import Verif.Props.C74

/-!
# C74 — a call that raises leaves the model as it was: approximate models

Queries of Annoy, NMSLib and Faiss models, and raising updates of the wrapped model, can be left out of a history.  For Faiss this
needs that no `similar_items` for a single item writes through to the factors (`C09_faiss_similar_violated`).
-/

set_option linter.unusedSectionVars false

namespace Implicit

variable {f : Nat}

namespace Spec

/-- The calls a caller may leave out: queries, and updates of the wrapped model that raise. -/
def ForgettableAnn {α : Type} : AnnCall f → Except Err α → Prop
  | .fit _, _ => False
  | .recommend _, _ => True
  | .similarItems _, _ => True
  | .onModel c, o => Forgettable c o

/-- A `fit` of the wrapped model that does not depend on what is cached: on two models with the same factors whose caches amount to the
same, it has the same outcome and leaves the same factors and caches. -/
def IgnoresCaches (env : Env f ℝ) (fit : InnerFit f) : Prop :=
  ∀ a b : MFState f ℝ, a.warm env = b.warm env → fit a = fit b

/-- The calls for which the property holds. -/
def TameAnn (E : AnnEnv f) : AnnCall f → Prop
  | .fit inner => IgnoresCaches E.env inner
  | .recommend _ => True
  | .similarItems _ => True
  | .onModel c => TameCall c

/-- For Faiss: `similar_items` is not called for a single item of an approximate index. -/
def TameFaiss (E : AnnEnv f) : AnnCall f → Prop
  | .similarItems a => E.approximateSimilar = false ∨ a.recalculate = true ∨ ∃ l, a.ids = .many l
  | c => TameAnn E c

end Spec

/-! ## Histories in general -/

theorem callsOf_picked {σ κ α : Type} (step : σ → κ → Except Err α × σ) (T : σ → σ → Prop)
    (htrans : ∀ a b c, T a b → T b c → T a c) (hsymm : ∀ a b, T a b → T b a) (tame : κ → Prop) (forget : κ → Except Err α → Prop)
    (h1 : ∀ a b c, tame c → T a b → (step a c).1 = (step b c).1 ∧ T (step a c).2 (step b c).2)
    (h2 : ∀ a c, tame c → forget c (step a c).1 → T (step a c).2 a) :
    ∀ (calls : List κ) (keep : List Bool) (a b : σ), T a b → keep.length = calls.length → (∀ c ∈ calls, tame c) →
      (∀ (k : Nat) c r, calls[k]? = some c → (callsOf step a calls).1[k]? = some r → keep[k]? = some false → forget c r) →
      (callsOf step b (Spec.picked calls keep)).1 = Spec.picked (callsOf step a calls).1 keep ∧
        T (callsOf step b (Spec.picked calls keep)).2 (callsOf step a calls).2
  | [], keep, a, b, h, hl, _, _ => by
    have : keep = [] := List.length_eq_zero_iff.mp hl
    subst this
    exact ⟨rfl, hsymm _ _ h⟩
  | c :: calls, [], _, _, _, hl, _, _ => by simp at hl
  | c :: calls, k :: keep, a, b, h, hl, ht, hf => by
    have hl' : keep.length = calls.length := by simpa using hl
    have ht' : ∀ d ∈ calls, tame d := fun d hd => ht d (List.mem_cons_of_mem _ hd)
    have hf' : ∀ (j : Nat) d r, calls[j]? = some d → (callsOf step (step a c).2 calls).1[j]? = some r →
        keep[j]? = some false → forget d r := by
      intro j d r e1 e2 e3
      exact hf (j + 1) d r (by simpa using e1) (by simpa [callsOf] using e2) (by simpa using e3)
    have hrun : ∀ s (cs : List κ), callsOf step s (c :: cs) = ((step s c).1 :: (callsOf step (step s c).2 cs).1,
      (callsOf step (step s c).2 cs).2) := fun _ _ => rfl
    cases k with
    | true =>
      obtain ⟨e1, e2⟩ := h1 a b c (ht c (by simp)) h
      have ih := callsOf_picked step T htrans hsymm tame forget h1 h2 calls keep _ _ e2 hl' ht' hf'
      rw [picked_cons, if_pos rfl, hrun, hrun]
      simp only
      rw [picked_cons, if_pos rfl, ih.1, e1]
      exact ⟨rfl, ih.2⟩
    | false =>
      have e2 := htrans _ _ _ (h2 a c (ht c (by simp)) (hf 0 c _ rfl rfl rfl)) h
      have ih := callsOf_picked step T htrans hsymm tame forget h1 h2 calls keep _ _ e2 hl' ht' hf'
      rw [picked_cons, if_neg (by simp), hrun]
      simp only
      rw [picked_cons, if_neg (by simp)]
      exact ih

/-! ## Queries and caches -/

/-- A query whose answer depends on what the caches amount to, and that keeps it. -/
def WarmQuery {α : Type} (env : Env f ℝ) (g : MFState f ℝ → Except Err α × MFState f ℝ) : Prop :=
  (∀ a b : MFState f ℝ, a.warm env = b.warm env → (g a).1 = (g b).1) ∧ ∀ a, (g a).2.warm env = a.warm env

theorem WarmQuery.const {α : Type} {env : Env f ℝ} {g : MFState f ℝ → Except Err α × MFState f ℝ}
    (h1 : ∀ a b : MFState f ℝ, a.user = b.user → a.item = b.item → (g a).1 = (g b).1) (h2 : ∀ a, (g a).2 = a) :
    WarmQuery env g :=
  ⟨fun a b h => h1 a b (warm_factors h).1 (warm_factors h).2, fun a => by rw [h2]⟩

theorem WarmQuery.delegate (env : Env f ℝ) (q : Query f ℝ) : WarmQuery env fun st => delegate env st q := by
  constructor
  · intro a b h
    have e : (runQuery env a q).1 = (runQuery env b q).1 := by
      rw [runQuery_warm_fst env a, runQuery_warm_fst env b, h]
    unfold Implicit.delegate
    simp only
    rcases ha : runQuery env a q with ⟨r, s⟩
    rcases hb : runQuery env b q with ⟨r', s'⟩
    rw [ha, hb] at e
    simp only at e
    subst e
    cases r with
    | error e => rfl
    | ok x => cases x <;> rfl
  · intro a
    have e := runQuery_warm_snd env a q
    unfold Implicit.delegate
    simp only
    rcases ha : runQuery env a q with ⟨r, s⟩
    rw [ha] at e
    cases r with
    | error e' => exact e
    | ok x => cases x <;> exact e

theorem WarmQuery.delegateSimilar (env : Env f ℝ) (ids : Ids) (N : Nat) (recalculate : Bool) (itemUsers : Option (SpRows ℝ))
    (F : Option PyFilter) (S : Option (List Int)) :
    WarmQuery env fun st => delegateSimilar env st ids N recalculate itemUsers F S := by
  unfold Implicit.delegateSimilar
  cases recalculate with
  | true =>
    cases itemUsers with
    | none => exact .const (fun _ _ _ _ => rfl) fun _ => rfl
    | some rows => exact .delegate env _
  | false => exact .delegate env _

theorem WarmQuery.recalculateItem (env : Env f ℝ) (ids : Ids) (rows : SpRows ℝ) :
    WarmQuery env fun st => recalculateItem env st ids rows := by
  constructor
  · intro a b h
    have e := congrArg MFState.XtX h
    have ei := (warm_factors h).1
    simp only [MFState.warm, Option.some.injEq] at e
    unfold Implicit.recalculateItem
    simp only
    have hf : ∀ s : MFState f ℝ, (getXtX s).2.user = s.user := by
      intro s; unfold getXtX; cases s.XtX <;> rfl
    rw [hf, hf, e, ei]
  · intro a
    rcases a with ⟨u, i, un, inn, y, x⟩
    unfold Implicit.recalculateItem
    cases x <;> cases un <;> cases inn <;> cases y <;> rfl

theorem WarmQuery.annItemFactors (env : Env f ℝ) (ids : Ids) (recalculate : Bool) (itemUsers : Option (SpRows ℝ)) :
    WarmQuery env fun st => annItemFactors env st ids recalculate itemUsers := by
  unfold Implicit.annItemFactors
  cases recalculate with
  | true =>
    cases itemUsers with
    | none => exact .const (fun _ _ _ _ => rfl) fun _ => rfl
    | some rows => exact .recalculateItem env ids rows
  | false => exact .const (fun _ _ _ h => by simp [h]) fun _ => rfl

theorem WarmQuery.batch {env : Env f ℝ} (lowest : ℝ) (N : Nat)
    {func : MFState f ℝ → Nat → Option (SpRows ℝ) → Except Err (List (Int × ℝ)) × MFState f ℝ}
    (hf : ∀ id rows, WarmQuery env fun st => func st id rows) (rows : Option (SpRows ℝ)) : ∀ (ids : List Nat) (i : Nat),
    WarmQuery env fun st => batchCall lowest N func rows i ids st
  | [], i => .const (fun _ _ _ _ => rfl) fun _ => rfl
  | id :: ids, i => by
    have ih := WarmQuery.batch lowest N hf rows ids (i + 1)
    unfold batchCall
    cases batchArg rows i with
    | error e => exact .const (fun _ _ _ _ => rfl) fun _ => rfl
    | ok arg =>
      have h := hf id arg
      constructor
      · intro a b hab
        have e := h.1 a b hab
        have ea := h.2 a
        have eb := h.2 b
        simp only at e ea eb ⊢
        rcases ha : func a id arg with ⟨r, s⟩
        rcases hb : func b id arg with ⟨r', s'⟩
        rw [ha] at e ea
        rw [hb] at e eb
        simp only at e ea eb
        subst e
        cases r with
        | error e => rfl
        | ok out =>
          simp only
          have e2 := ih.1 s s' (by rw [ea, eb, hab])
          simp only at e2
          rcases ha' : batchCall lowest N func rows (i + 1) ids s with ⟨t, u⟩
          rcases hb' : batchCall lowest N func rows (i + 1) ids s' with ⟨t', u'⟩
          rw [ha', hb'] at e2
          simp only at e2
          subst e2
          cases t <;> rfl
      · intro a
        have ea := h.2 a
        simp only at ea ⊢
        rcases ha : func a id arg with ⟨r, s⟩
        rw [ha] at ea
        cases r with
        | error e => exact ea
        | ok out =>
          simp only
          have e2 := ih.2 s
          simp only at e2
          rcases ha' : batchCall lowest N func rows (i + 1) ids s with ⟨t, u⟩
          rw [ha'] at e2
          cases t <;> exact e2.trans ea

theorem WarmQuery.map {α β : Type} {env : Env f ℝ} {g : MFState f ℝ → Except Err α × MFState f ℝ} (h : WarmQuery env g) (k : α → β) :
    WarmQuery env fun st => ((g st).1.map k, (g st).2) :=
  ⟨fun a b hab => by simp only [h.1 a b hab], fun a => h.2 a⟩

/-- A query followed by a computation on its value. -/
theorem WarmQuery.bind {α β : Type} {env : Env f ℝ} {g : MFState f ℝ → Except Err α × MFState f ℝ} (h : WarmQuery env g)
    (k : α → Except Err β) : WarmQuery env fun st => match g st with
      | (.error e, s) => (.error e, s)
      | (.ok v, s) => (k v, s) := by
  constructor
  · intro a b hab
    have e := h.1 a b hab
    rcases ha : g a with ⟨r, s⟩
    rcases hb : g b with ⟨r', s'⟩
    rw [ha, hb] at e
    simp only at e
    subst e
    simp only [ha, hb]
    cases r <;> rfl
  · intro a
    have e := h.2 a
    rcases ha : g a with ⟨r, s⟩
    rw [ha] at e
    simp only [ha]
    cases r <;> exact e

theorem WarmQuery.withIndex {α : Type} {n : Nat} (E : AnnEnv f) (index : Option (AnnIndex n)) (approximate : Bool)
    {query : (Vec n ℝ → Nat → List (Int × ℝ)) → MFState f ℝ → Except Err α × MFState f ℝ}
    (h : ∀ search, WarmQuery E.env (query search)) :
    WarmQuery E.env fun st => withIndex E index approximate fun search => query search st := by
  unfold Implicit.withIndex
  cases index with
  | some idx => exact h _
  | none =>
    constructor
    · intro a b hab
      have e := (h fun _ _ => []).1 a b hab
      simp only
      rcases ha : query (fun _ _ => []) a with ⟨r, s⟩
      rcases hb : query (fun _ _ => []) b with ⟨r', s'⟩
      rw [ha, hb] at e
      simp only at e
      subst e
      cases r <;> rfl
    · intro a
      have e := (h fun _ _ => []).2 a
      simp only
      rcases ha : query (fun _ _ => []) a with ⟨r, s⟩
      rw [ha] at e
      cases r <;> exact e

theorem WarmQuery.annRecommend (env : Env f ℝ) (search : Vec (f + 1) ℝ → Nat → List (Int × ℝ)) (norm : Vec (f + 1) ℝ → ℝ)
    (maxNorm : ℝ) (score : ℝ → ℝ → ℝ) (approximate : Bool) (ids : Ids) (userItems : Option (SpRows ℝ)) (N : Nat)
    (liked : Bool) (F : Option PyFilter) (recalculate : Bool) (S : Option (List Int)) :
    WarmQuery env fun st => annRecommend env search norm maxNorm score approximate st ids userItems N liked F recalculate S := by
  have hone : ∀ (a b : MFState f ℝ) u rows, a.user = b.user →
      annRecommendOne search norm maxNorm score a u rows N liked F recalculate =
        annRecommendOne search norm maxNorm score b u rows N liked F recalculate := by
    intro a b u rows h
    unfold annRecommendOne
    rw [h]
  unfold Implicit.annRecommend
  split
  · exact .const (fun _ _ _ _ => rfl) fun _ => rfl
  · split
    · exact .const (fun _ _ _ _ => rfl) fun _ => rfl
    · split
      · exact .delegate env _
      · cases ids with
        | one u => exact .const (fun a b h _ => by simp only [hone a b u userItems h]) fun _ => rfl
        | many us =>
          refine (WarmQuery.batch env.neginf N (fun id rows => ?_) userItems us 0).map AnnAnswer.many
          unfold annRecommendRow
          cases rows with
          | none => exact .const (fun _ _ _ _ => rfl) fun _ => rfl
          | some rows => exact .const (fun a b h _ => by simp only [hone a b id (some rows) h]) fun _ => rfl

theorem WarmQuery.annoySimilar (env : Env f ℝ) (search : Vec f ℝ → Nat → List (Int × ℝ)) (approximate : Bool) (ids : Ids)
    (N : Nat) (recalculate : Bool) (itemUsers : Option (SpRows ℝ)) (F : Option PyFilter) (S : Option (List Int)) :
    WarmQuery env fun st => annoySimilar env search approximate st ids N recalculate itemUsers F S := by
  have hone : ∀ i rows, WarmQuery env fun st => annoySimilarOne env search st i N recalculate rows F := by
    intro i rows
    have h := (WarmQuery.annItemFactors env (.one i) recalculate rows).bind (fun v => match v with
      | [] => (.error .indexError : Except Err (List (Int × ℝ)))
      | factor :: _ => .ok ((annFilter (F.map PyFilter.ids) N (search factor N)).map fun p => (p.1, 1 - p.2 ^ 2 / 2)))
    refine cast (congrArg (WarmQuery env) (funext fun st => ?_)) h
    unfold annoySimilarOne
    rcases Implicit.annItemFactors env st (.one i) recalculate rows with ⟨r, s⟩
    cases r with
    | error e => rfl
    | ok v => cases v <;> rfl
  unfold Implicit.annoySimilar
  split
  · exact .const (fun _ _ _ _ => rfl) fun _ => rfl
  · split
    · exact .delegateSimilar env _ _ _ _ _ _
    · cases ids with
      | one i => exact (hone i itemUsers).map AnnAnswer.one
      | many is => exact (WarmQuery.batch env.neginf N hone itemUsers is 0).map AnnAnswer.many

theorem WarmQuery.nmslibSimilar (env : Env f ℝ) (search : Vec f ℝ → Nat → List (Int × ℝ)) (approximate : Bool) (ids : Ids)
    (N : Nat) (recalculate : Bool) (itemUsers : Option (SpRows ℝ)) (F : Option PyFilter) (S : Option (List Int)) :
    WarmQuery env fun st => nmslibSimilar env search approximate st ids N recalculate itemUsers F S := by
  unfold Implicit.nmslibSimilar
  split
  · exact .delegateSimilar env _ _ _ _ _ _
  · split
    · exact .const (fun _ _ _ _ => rfl) fun _ => rfl
    · have h := (WarmQuery.annItemFactors env ids recalculate itemUsers).bind (fun factors =>
        let convert := fun row : List (Int × ℝ) => row.map fun p => (p.1, 1 - p.2)
        let filter := F.map PyFilter.ids
        match ids with
        | .one _ =>
          match factors with
          | [] => (.error .indexError : Except Err (AnnAnswer ℝ))
          | q :: _ => .ok (.one (annFilter filter N (convert (search q (annCount N F)))))
        | .many _ => do
          let rows ← stackRows (factors.map fun q => search q (annCount N F))
          return AnnAnswer.many (← annFilterBatch filter N (rows.map convert)))
      refine cast (congrArg (WarmQuery env) (funext fun st => ?_)) h
      rcases Implicit.annItemFactors env st ids recalculate itemUsers with ⟨r, s⟩
      cases r with
      | error e => rfl
      | ok v =>
        cases ids with
        | one i => cases v <;> rfl
        | many is => rfl

theorem WarmQuery.faissDirect (env : Env f ℝ) (search : Vec f ℝ → Nat → List (Int × ℝ)) (ids : Ids)
    (userItems : Option (SpRows ℝ)) (N : Nat) (liked : Bool) (F : Option PyFilter) (recalculate : Bool) :
    WarmQuery env fun st => faissRecommendDirect env search false st ids userItems N liked F recalculate := by
  refine .const ?_ ?_
  · intro a b h _
    unfold faissRecommendDirect
    rw [h]
    simp only [Bool.false_and, Bool.false_eq_true, if_false]
    split
    · rfl
    · split
      · rfl
      · cases ids with
        | one u => simp only; split <;> rfl
        | many us => rfl
  · intro a
    unfold faissRecommendDirect
    simp only [Bool.false_and, Bool.false_eq_true, if_false]
    split
    · rfl
    · split
      · rfl
      · cases ids with
        | one u => simp only; split <;> rfl
        | many us => rfl

theorem WarmQuery.faissOne (env : Env f ℝ) (search : Vec f ℝ → Nat → List (Int × ℝ)) (approximate : Bool) (N : Nat)
    (liked : Bool) (F : Option PyFilter) (recalculate : Bool) (ids : Ids) (userItems : Option (SpRows ℝ)) :
    WarmQuery env fun st => faissRecommendOne env search approximate false N liked F recalculate st ids userItems := by
  unfold faissRecommendOne
  split
  · exact .const (fun _ _ _ _ => rfl) fun _ => rfl
  · exact .faissDirect env search ids userItems N liked F recalculate

theorem WarmQuery.faissRecommend (env : Env f ℝ) (search : Vec f ℝ → Nat → List (Int × ℝ)) (approximate : Bool) (ids : Ids)
    (userItems : Option (SpRows ℝ)) (N : Nat) (liked : Bool) (F : Option PyFilter) (recalculate : Bool)
    (S : Option (List Int)) :
    WarmQuery env fun st => faissRecommend env search approximate false st ids userItems N liked F recalculate S := by
  unfold Implicit.faissRecommend
  split
  · exact .const (fun _ _ _ _ => rfl) fun _ => rfl
  · split
    · exact .const (fun _ _ _ _ => rfl) fun _ => rfl
    · cases ids with
      | one u => exact .faissOne env search approximate N liked F recalculate _ _
      | many us =>
        simp only
        split
        · refine (WarmQuery.batch env.neginf N (fun id rows => ?_) userItems us 0).map AnnAnswer.many
          have h := (WarmQuery.faissOne env search approximate N liked F recalculate (.one id) rows).bind (fun v => match v with
            | .one row => (.ok row : Except Err (List (Int × ℝ)))
            | .many _ => .error .typeError)
          refine cast (congrArg (WarmQuery env) (funext fun st => ?_)) h
          rcases faissRecommendOne env search approximate false N liked F recalculate st (.one id) rows with ⟨r, s⟩
          cases r with
          | error e => rfl
          | ok v => cases v <;> rfl
        · exact .faissOne env search approximate N liked F recalculate _ _

theorem WarmQuery.faissSimilar (env : Env f ℝ) (search : Vec f ℝ → Nat → List (Int × ℝ)) (approximate : Bool) (ids : Ids)
    (N : Nat) (recalculate : Bool) (itemUsers : Option (SpRows ℝ)) (F : Option PyFilter) (S : Option (List Int))
    (h : approximate = false ∨ recalculate = true ∨ ∃ l, ids = .many l) :
    WarmQuery env fun st => faissSimilar env search approximate false st ids N recalculate itemUsers F S := by
  unfold Implicit.faissSimilar
  split
  · exact .const (fun _ _ _ _ => rfl) fun _ => rfl
  · split
    · exact .delegateSimilar env _ _ _ _ _ _
    · rename_i happ
      have hh : recalculate = true ∨ ∃ l, ids = .many l := by
        rcases h with h | h
        · rw [h] at happ; simp at happ
        · exact h
      have h := (WarmQuery.annItemFactors env ids recalculate itemUsers).bind (fun factors =>
        match ids with
        | .one _ =>
          match factors with
          | [] => (.error .indexError : Except Err (AnnAnswer ℝ))
          | q :: _ => .ok (.one (annFilter (F.map PyFilter.ids) N (search (normalizeVec env.norm q) (annCount N F))))
        | .many _ => (annFilterBatch (F.map PyFilter.ids) N
            (factors.map fun q => search (normalizeVec env.norm q) (annCount N F))).map .many)
      refine cast (congrArg (WarmQuery env) (funext fun st => ?_)) h
      rcases Implicit.annItemFactors env st ids recalculate itemUsers with ⟨r, s⟩
      cases r with
      | error e => rfl
      | ok v =>
        cases ids with
        | one i =>
          rcases hh with rfl | ⟨l, hl⟩
          · cases v <;> rfl
          · cases hl
        | many is => rfl

/-! ## The property -/

/-- Two states of an approximate model that no query can tell apart. -/
def AnnTwin {n : Nat} (E : AnnEnv f) (a b : AnnState f n) : Prop :=
  a.inner.warm E.env = b.inner.warm E.env ∧ a.similarIndex = b.similarIndex ∧ a.recommendIndex = b.recommendIndex ∧
    a.maxNorm = b.maxNorm

theorem AnnTwin.trans {n : Nat} {E : AnnEnv f} (a b c : AnnState f n) (h : AnnTwin E a b) (k : AnnTwin E b c) : AnnTwin E a c :=
  ⟨h.1.trans k.1, h.2.1.trans k.2.1, h.2.2.1.trans k.2.2.1, h.2.2.2.trans k.2.2.2⟩

theorem AnnTwin.symm {n : Nat} {E : AnnEnv f} (a b : AnnState f n) (h : AnnTwin E a b) : AnnTwin E b a :=
  ⟨h.1.symm, h.2.1.symm, h.2.2.1.symm, h.2.2.2.symm⟩

theorem annRecommendOn_warm (kind : AnnKind) (E : AnnEnv f) {a b : AnnState f (f + 1)} (h : AnnTwin E a b) (args : AnnRecommendArgs) :
    (annRecommendOn kind E a args).1 = (annRecommendOn kind E b args).1 ∧
      (annRecommendOn kind E a args).2.warm E.env = a.inner.warm E.env := by
  obtain ⟨h1, -, h3, h4⟩ := h
  have w := WarmQuery.withIndex E a.recommendIndex E.approximateRecommend
    (fun search => WarmQuery.annRecommend E.env search (E.norm (f + 1)) (a.maxNorm.getD 0) kind.score E.approximateRecommend
      args.ids args.userItems args.N args.filterLiked args.filterItems args.recalculate args.items)
  refine ⟨?_, w.2 a.inner⟩
  have e := w.1 a.inner b.inner h1
  unfold annRecommendOn
  rw [← h3, ← h4]
  exact e

theorem annSimilarOn_warm (kind : AnnKind) (E : AnnEnv f) {a b : AnnState f (f + 1)} (h : AnnTwin E a b) (args : AnnSimilarArgs) :
    (annSimilarOn kind E a args).1 = (annSimilarOn kind E b args).1 ∧
      (annSimilarOn kind E a args).2.warm E.env = a.inner.warm E.env := by
  obtain ⟨h1, h2, -, -⟩ := h
  cases kind with
  | annoy =>
    have w := WarmQuery.withIndex E a.similarIndex E.approximateSimilar
      (fun search => WarmQuery.annoySimilar E.env search E.approximateSimilar args.ids args.N args.recalculate args.itemUsers
        args.filterItems args.items)
    refine ⟨?_, w.2 a.inner⟩
    have e := w.1 a.inner b.inner h1
    unfold annSimilarOn
    rw [← h2]
    exact e
  | nmslib =>
    have w := WarmQuery.withIndex E a.similarIndex E.approximateSimilar
      (fun search => WarmQuery.nmslibSimilar E.env search E.approximateSimilar args.ids args.N args.recalculate args.itemUsers
        args.filterItems args.items)
    refine ⟨?_, w.2 a.inner⟩
    have e := w.1 a.inner b.inner h1
    unfold annSimilarOn
    rw [← h2]
    exact e

theorem faissRecommendOn_warm (E : AnnEnv f) {a b : AnnState f f} (h : AnnTwin E a b) (args : AnnRecommendArgs) :
    (faissRecommendOn E a args).1 = (faissRecommendOn E b args).1 ∧
      (faissRecommendOn E a args).2.warm E.env = a.inner.warm E.env := by
  obtain ⟨h1, -, h3, -⟩ := h
  have w := WarmQuery.withIndex E a.recommendIndex E.approximateRecommend
    (fun search => WarmQuery.faissRecommend E.env search E.approximateRecommend args.ids args.userItems args.N
      args.filterLiked args.filterItems args.recalculate args.items)
  refine ⟨?_, w.2 a.inner⟩
  have e := w.1 a.inner b.inner h1
  unfold faissRecommendOn
  rw [← h3]
  exact e

theorem faissSimilarOn_warm (E : AnnEnv f) {a b : AnnState f f} (h : AnnTwin E a b) (args : AnnSimilarArgs)
    (ht : E.approximateSimilar = false ∨ args.recalculate = true ∨ ∃ l, args.ids = .many l) :
    (faissSimilarOn E a args).1 = (faissSimilarOn E b args).1 ∧
      (faissSimilarOn E a args).2.warm E.env = a.inner.warm E.env := by
  obtain ⟨h1, h2, -, -⟩ := h
  have w := WarmQuery.withIndex E a.similarIndex E.approximateSimilar
    (fun search => WarmQuery.faissSimilar E.env search E.approximateSimilar args.ids args.N args.recalculate args.itemUsers
      args.filterItems args.items ht)
  refine ⟨?_, w.2 a.inner⟩
  have e := w.1 a.inner b.inner h1
  unfold faissSimilarOn
  rw [← h2]
  exact e

theorem map_error_inv {α β : Type} {g : α → β} {o : Except Err α} {e : Err} (h : o.map g = .error e) : o = .error e := by
  cases o with
  | error e' => cases h; rfl
  | ok v => cases h

theorem forgettable_map {α β : Type} {g : α → β} {c : MFCall f ℝ} {o : Except Err α} (h : Spec.Forgettable c (o.map g)) :
    Spec.Forgettable c o := by
  cases c with
  | query q => trivial
  | partialFitUsers ids rows => obtain ⟨e, he⟩ := h; exact ⟨e, map_error_inv he⟩
  | partialFitItems ids rows => obtain ⟨e, he⟩ := h; exact ⟨e, map_error_inv he⟩
  | fit => exact h

theorem annCall_twin (kind : AnnKind) (E : AnnEnv f) (a b : AnnState f (f + 1)) (c : AnnCall f) (hc : Spec.TameAnn E c)
    (h : AnnTwin E a b) :
    (annCall kind E a c).1 = (annCall kind E b c).1 ∧ AnnTwin E (annCall kind E a c).2 (annCall kind E b c).2 := by
  cases c with
  | fit inner =>
    obtain ⟨h1, h2, h3, h4⟩ := h
    have e : annFit kind E inner a = annFit kind E inner b := by
      have hs : ∀ m, ({ a with inner := m } : AnnState f (f + 1)) = { b with inner := m } := by
        intro m
        rcases a with ⟨_, _, _, _⟩
        rcases b with ⟨_, _, _, _⟩
        simp only at h2 h3 h4
        subst h2 h3 h4
        rfl
      unfold annFit
      rw [hc a.inner b.inner h1]
      rcases inner b.inner with ⟨r, m⟩
      cases r with
      | error e => simp only [hs]
      | ok u => simp only [h2, h3, h4]
    unfold annCall
    simp only
    rw [e]
    exact ⟨rfl, rfl, rfl, rfl, rfl⟩
  | recommend args =>
    obtain ⟨e1, e2⟩ := annRecommendOn_warm kind E h args
    obtain ⟨-, e3⟩ := annRecommendOn_warm kind E (AnnTwin.symm _ _ h) args
    unfold annCall
    simp only
    rw [e1]
    exact ⟨rfl, by rw [e2, e3, h.1], h.2⟩
  | similarItems args =>
    obtain ⟨e1, e2⟩ := annSimilarOn_warm kind E h args
    obtain ⟨-, e3⟩ := annSimilarOn_warm kind E (AnnTwin.symm _ _ h) args
    unfold annCall
    simp only
    rw [e1]
    exact ⟨rfl, by rw [e2, e3, h.1], h.2⟩
  | onModel c =>
    obtain ⟨e1, e2⟩ := runCall_warm h.1 hc
    unfold annCall
    simp only
    rw [e1]
    exact ⟨rfl, e2, h.2⟩

theorem annCall_forget (kind : AnnKind) (E : AnnEnv f) (a : AnnState f (f + 1)) (c : AnnCall f) (hc : Spec.TameAnn E c)
    (hf : Spec.ForgettableAnn c (annCall kind E a c).1) : AnnTwin E (annCall kind E a c).2 a := by
  have hr : AnnTwin E a a := ⟨rfl, rfl, rfl, rfl⟩
  cases c with
  | fit inner => exact hf.elim
  | recommend args => exact ⟨(annRecommendOn_warm kind E hr args).2, rfl, rfl, rfl⟩
  | similarItems args => exact ⟨(annSimilarOn_warm kind E hr args).2, rfl, rfl, rfl⟩
  | onModel c =>
    have h : Spec.Forgettable c ((runCall E.env a.inner c).1.map AnnReturn.ofModel) := hf
    exact ⟨runCall_forgettable hc (forgettable_map h), rfl, rfl, rfl⟩

theorem faissCall_twin (E : AnnEnv f) (nlist : Nat) (a b : AnnState f f) (c : AnnCall f) (hc : Spec.TameFaiss E c)
    (h : AnnTwin E a b) :
    (faissCall E nlist a c).1 = (faissCall E nlist b c).1 ∧ AnnTwin E (faissCall E nlist a c).2 (faissCall E nlist b c).2 := by
  cases c with
  | fit inner =>
    obtain ⟨h1, h2, h3, h4⟩ := h
    have e : faissFit E nlist inner a = faissFit E nlist inner b := by
      have hs : ∀ m, ({ a with inner := m } : AnnState f f) = { b with inner := m } := by
        intro m
        rcases a with ⟨_, _, _, _⟩
        rcases b with ⟨_, _, _, _⟩
        simp only at h2 h3 h4
        subst h2 h3 h4
        rfl
      have hi : Spec.IgnoresCaches E.env inner := hc
      unfold faissFit
      rw [hi a.inner b.inner h1]
      rcases inner b.inner with ⟨r, m⟩
      have := hs m
      simp only [AnnState.mk.injEq, true_and] at this
      obtain ⟨k1, k2, k3⟩ := this
      cases r with
      | error e => simp only [hs]
      | ok u => simp only [k1, k2, k3]
    unfold faissCall
    simp only
    rw [e]
    exact ⟨rfl, rfl, rfl, rfl, rfl⟩
  | recommend args =>
    obtain ⟨e1, e2⟩ := faissRecommendOn_warm E h args
    obtain ⟨-, e3⟩ := faissRecommendOn_warm E (AnnTwin.symm _ _ h) args
    unfold faissCall
    simp only
    rw [e1]
    exact ⟨rfl, by rw [e2, e3, h.1], h.2⟩
  | similarItems args =>
    obtain ⟨e1, e2⟩ := faissSimilarOn_warm E h args hc
    obtain ⟨-, e3⟩ := faissSimilarOn_warm E (AnnTwin.symm _ _ h) args hc
    unfold faissCall
    simp only
    rw [e1]
    exact ⟨rfl, by rw [e2, e3, h.1], h.2⟩
  | onModel c =>
    obtain ⟨e1, e2⟩ := runCall_warm h.1 hc
    unfold faissCall
    simp only
    rw [e1]
    exact ⟨rfl, e2, h.2⟩

theorem faissCall_forget (E : AnnEnv f) (nlist : Nat) (a : AnnState f f) (c : AnnCall f) (hc : Spec.TameFaiss E c)
    (hf : Spec.ForgettableAnn c (faissCall E nlist a c).1) : AnnTwin E (faissCall E nlist a c).2 a := by
  have hr : AnnTwin E a a := ⟨rfl, rfl, rfl, rfl⟩
  cases c with
  | fit inner => exact hf.elim
  | recommend args => exact ⟨(faissRecommendOn_warm E hr args).2, rfl, rfl, rfl⟩
  | similarItems args => exact ⟨(faissSimilarOn_warm E hr args hc).2, rfl, rfl, rfl⟩
  | onModel c =>
    have h : Spec.Forgettable c ((runCall E.env a.inner c).1.map AnnReturn.ofModel) := hf
    exact ⟨runCall_forgettable hc (forgettable_map h), rfl, rfl, rfl⟩

/-- **C74** (Annoy and NMSLib).  Leave out of a history any queries and any updates of the wrapped model that raise: every remaining call has
the outcome it had, and factors and indexes at the end are the same.  The state at the start is arbitrary, and so are the answers of the
index library. -/
theorem C74_ann_partial (kind : AnnKind) (E : AnnEnv f) (st : AnnState f (f + 1)) (calls : List (AnnCall f)) (keep : List Bool)
    (hl : keep.length = calls.length) (ht : ∀ c ∈ calls, Spec.TameAnn E c)
    (hf : ∀ (k : Nat) c r, calls[k]? = some c → (callsOf (annCall kind E) st calls).1[k]? = some r → keep[k]? = some false →
      Spec.ForgettableAnn c r) :
    let left := callsOf (annCall kind E) st (Spec.picked calls keep)
    let all := callsOf (annCall kind E) st calls
    left.1 = Spec.picked all.1 keep ∧ left.2.inner.user = all.2.inner.user ∧ left.2.inner.item = all.2.inner.item ∧
      left.2.similarIndex = all.2.similarIndex ∧ left.2.recommendIndex = all.2.recommendIndex ∧
      left.2.maxNorm = all.2.maxNorm := by
  obtain ⟨h1, h2, h3, h4, h5⟩ := callsOf_picked (annCall kind E) (AnnTwin E) AnnTwin.trans AnnTwin.symm (Spec.TameAnn E)
    Spec.ForgettableAnn (annCall_twin kind E) (annCall_forget kind E) calls keep st st ⟨rfl, rfl, rfl, rfl⟩ hl ht hf
  exact ⟨h1, (warm_factors h2).1, (warm_factors h2).2, h3, h4, h5⟩

/-- **C74** (Faiss with an index on the CPU), for histories without `similar_items` for a single item of an approximate index. -/
theorem C74_faiss_partial (E : AnnEnv f) (nlist : Nat) (st : AnnState f f) (calls : List (AnnCall f)) (keep : List Bool)
    (hl : keep.length = calls.length) (ht : ∀ c ∈ calls, Spec.TameFaiss E c)
    (hf : ∀ (k : Nat) c r, calls[k]? = some c → (callsOf (faissCall E nlist) st calls).1[k]? = some r → keep[k]? = some false →
      Spec.ForgettableAnn c r) :
    let left := callsOf (faissCall E nlist) st (Spec.picked calls keep)
    let all := callsOf (faissCall E nlist) st calls
    left.1 = Spec.picked all.1 keep ∧ left.2.inner.user = all.2.inner.user ∧ left.2.inner.item = all.2.inner.item ∧
      left.2.similarIndex = all.2.similarIndex ∧ left.2.recommendIndex = all.2.recommendIndex := by
  obtain ⟨h1, h2, h3, h4, -⟩ := callsOf_picked (faissCall E nlist) (AnnTwin E) AnnTwin.trans AnnTwin.symm (Spec.TameFaiss E)
    Spec.ForgettableAnn (faissCall_twin E nlist) (faissCall_forget E nlist) calls keep st st ⟨rfl, rfl, rfl, rfl⟩ hl ht hf
  exact ⟨h1, (warm_factors h2).1, (warm_factors h2).2, h3, h4⟩

/-! ## Examples -/

/-- The `fit` of alternating least squares and Bayesian personalised ranking ignores the caches: it drops them. -/
theorem fitModel_ignoresCaches (env : Env f ℝ) (train : Nat → Factors f ℝ → Except Err (Factors f ℝ))
    (callback : Nat → List (Query f ℝ)) (torn : Factors f ℝ) (epochs : Nat) :
    Spec.IgnoresCaches env (fitModel env true train callback torn epochs) := by
  intro a b h
  obtain ⟨hu, hi⟩ := warm_factors h
  unfold fitModel
  simp only [if_true, hu, hi]

/-- A history of an Annoy model with a raising query and a raising update that are left out: the hypotheses are met, so what is left answers as
before. -/
example (E : AnnEnv f) (train : Nat → Factors f ℝ → Except Err (Factors f ℝ)) (torn : Factors f ℝ) (st : AnnState f (f + 1))
    (args : AnnRecommendArgs) :
    let fit : AnnCall f := .fit (fitModel E.env true train (fun _ => []) torn 15)
    let bad : AnnCall f := .recommend ⟨.one 0, none, 10, true, none, false, none⟩
    let short : AnnCall f := .onModel (.partialFitUsers [0, 1] [[]])
    let ask : AnnCall f := .recommend args
    (callsOf (annCall .annoy E) st [fit, bad, short, ask]).1[1]? = some (.error .valueError) ∧
      (callsOf (annCall .annoy E) st [fit, bad, short, ask]).1[2]? = some (.error .valueError) ∧
      (callsOf (annCall .annoy E) st [fit, ask]).1 =
        Spec.picked (callsOf (annCall .annoy E) st [fit, bad, short, ask]).1 [true, false, false, true] := by
  intro fit bad short ask
  have h1 : ∀ s, (annCall .annoy E s bad).1 = .error .valueError := by
    intro s
    show (annRecommendOn .annoy E s ⟨.one 0, none, 10, true, none, false, none⟩).1.map AnnReturn.answer = _
    unfold annRecommendOn withIndex
    cases s.recommendIndex <;> simp [annRecommend, Except.map]
  have h2 : ∀ s, (annCall .annoy E s short).1 = .error .valueError := fun s => rfl
  refine ⟨by simp [callsOf, h1], by simp [callsOf, h2], ?_⟩
  refine (C74_ann_partial .annoy E st [fit, bad, short, ask] [true, false, false, true] rfl ?_ ?_).1
  · intro c hc
    rcases List.mem_cons.mp hc with rfl | hc
    · exact fitModel_ignoresCaches _ _ _ _ _
    · rcases List.mem_cons.mp hc with rfl | hc
      · trivial
      · rcases List.mem_cons.mp hc with rfl | hc
        · exact .inl (by simp)
        · rcases List.mem_cons.mp hc with rfl | hc
          · trivial
          · cases hc
  · intro k c r hk hr hkeep
    match k, hkeep with
    | 1, _ => cases hk; trivial
    | 2, _ =>
      cases hk
      have : (callsOf (annCall .annoy E) st [fit, bad, short, ask]).1[2]? = some (.error .valueError) := by simp [callsOf, h2]
      rw [this] at hr
      cases hr
      exact ⟨_, rfl⟩
    | 3, h => simp at h
    | k + 4, h => simp at h

end Implicit
