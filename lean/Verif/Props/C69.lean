import Verif.Lemmas.Factory
import Verif.Model.Interface
import Verif.Spec.Interface
/-!
# C69: code written against `RecommenderBase` works with every model
-/

set_option linter.unusedSectionVars false
set_option linter.unusedSimpArgs false

namespace Implicit

open Spec (Call Substitutable)

/-- The values bound do not depend on the name of a first parameter that is given by position. -/
theorem pyBind_first (name name' : String) (ps : List (PName × Option ArgVal)) (c : Call PName ArgVal) (hpos : c.pos ≠ [])
    (hn : PName.other name ∉ ps.map Prod.fst) (hn' : PName.other name' ∉ ps.map Prod.fst) :
    (do let b ← pyBind (plainSig (req name :: ps)) c; pure (b.args.map Prod.snd) : Except Err (List ArgVal)) =
      (do let b ← pyBind (plainSig (req name' :: ps)) c; pure (b.args.map Prod.snd)) := by
  obtain ⟨v, pos, hp⟩ := List.exists_cons_of_ne_nil hpos
  have key : ∀ n : String, PName.other n ∉ ps.map Prod.fst →
      (do let b ← pyBind (plainSig (req n :: ps)) c; pure (b.args.map Prod.snd) : Except Err (List ArgVal)) =
      if ps.length < pos.length ∨ ¬ (c.kw.map Prod.fst).Nodup ∨
          (c.kw.any fun e => ((ps.take pos.length).map Prod.fst).contains e.1) = true ∨
          (c.kw.any fun e => !(ps.map Prod.fst).contains e.1) = true then .error .typeError
      else (bindParams c.kw ps pos).map fun args => v :: args.map Prod.snd := by
    intro n hn
    unfold pyBind plainSig PySig.knows
    simp only [hp, List.length_cons, Nat.add_lt_add_iff_right, and_true, true_and, List.take_succ_cons, List.map_cons,
      List.map_nil, List.append_nil, List.contains_nil, Bool.or_false]
    by_cases h1 : ps.length < pos.length
    · simp [h1, bind, Except.bind]
    by_cases h2 : (c.kw.map Prod.fst).Nodup
    swap
    · simp [h1, h2, bind, Except.bind]
    by_cases hmem : ∃ e ∈ c.kw, e.1 = PName.other n
    · obtain ⟨e, he, hen⟩ := hmem
      have a1 : (c.kw.any fun e => (((req n).1 :: (ps.take pos.length).map Prod.fst)).contains e.1) = true := by
        rw [List.any_eq_true]
        exact ⟨e, he, by simp [req, hen]⟩
      have a2 : (c.kw.any fun e => !(ps.map Prod.fst).contains e.1) = true := by
        rw [List.any_eq_true]
        refine ⟨e, he, ?_⟩
        rw [hen]
        simp only [Bool.not_eq_true', List.contains_eq_mem, decide_eq_false_iff_not]
        exact hn
      rw [if_neg h1, if_neg (not_not.2 h2), if_pos a1, if_pos (Or.inr (Or.inr (Or.inr a2)))]
      rfl
    · push Not at hmem
      have a1 : ∀ l : List PName, (c.kw.any fun e => ((req n).1 :: l).contains e.1) = (c.kw.any fun e => l.contains e.1) := by
        intro l
        rw [Bool.eq_iff_iff, List.any_eq_true, List.any_eq_true]
        constructor
        · rintro ⟨e, he, h⟩
          refine ⟨e, he, ?_⟩
          simp only [List.contains_eq_mem, decide_eq_true_eq, List.mem_cons] at h ⊢
          exact h.resolve_left (hmem e he)
        · rintro ⟨e, he, h⟩
          refine ⟨e, he, ?_⟩
          simp only [List.contains_eq_mem, decide_eq_true_eq, List.mem_cons] at h ⊢
          exact Or.inr h
      have a2 : ∀ l : List PName, (c.kw.any fun e => !((req n).1 :: l).contains e.1) =
          (c.kw.any fun e => !l.contains e.1) := by
        intro l
        rw [Bool.eq_iff_iff, List.any_eq_true, List.any_eq_true]
        constructor
        · rintro ⟨e, he, h⟩
          refine ⟨e, he, ?_⟩
          simp only [Bool.not_eq_true', List.contains_eq_mem, decide_eq_false_iff_not, List.mem_cons, not_or] at h ⊢
          exact h.2
        · rintro ⟨e, he, h⟩
          refine ⟨e, he, ?_⟩
          simp only [Bool.not_eq_true', List.contains_eq_mem, decide_eq_false_iff_not, List.mem_cons, not_or] at h ⊢
          exact ⟨hmem e he, h⟩
      rw [a1, a2]
      by_cases h3 : (c.kw.any fun e => ((ps.take pos.length).map Prod.fst).contains e.1) = true
      · simp only [if_neg h1, h2, not_true_eq_false, if_false, h3, if_true, true_or, or_true, bind, Except.bind]
      by_cases h4 : (c.kw.any fun e => !(ps.map Prod.fst).contains e.1) = true
      · rw [if_neg h1, if_neg (not_not.2 h2), if_neg h3, if_pos h4, if_pos (Or.inr (Or.inr (Or.inr h4)))]
        rfl
      rw [if_neg h1, if_neg (not_not.2 h2), if_neg h3, if_neg h4,
        if_neg (by rintro (h | h | h | h); exacts [h1 h, h h2, h3 h, h4 h])]
      simp only [req, bindParams, bindParam, List.head?_cons, List.tail_cons, bind, Except.bind, pure, Except.pure]
      cases bindParams c.kw ps pos <;> simp [Except.map]
  rw [key name hn, key name' hn']

/-- Bound parameters are those of the signature, in order. -/
theorem bindParams_names (kw : List (PName × ArgVal)) : ∀ (ps : List (PName × Option ArgVal)) (pos : List ArgVal)
    {args : List (PName × ArgVal)}, bindParams kw ps pos = .ok args → args.map Prod.fst = ps.map Prod.fst
  | [], _, args, h => by simp only [bindParams, Except.ok.injEq] at h; subst h; rfl
  | (p, d) :: ps, pos, args, h => by
    simp only [bindParams, bind, Except.bind, pure, Except.pure] at h
    cases hv : bindParam kw p d pos.head? with
    | error e => rw [hv] at h; cases h
    | ok v =>
      rw [hv] at h
      cases hr : bindParams kw ps pos.tail with
      | error e => rw [hr] at h; cases h
      | ok rest =>
        rw [hr] at h
        injection h with h
        subst h
        simp [bindParams_names kw ps pos.tail hr]

/-- The bound arguments, from the values. -/
theorem bound_values {ps : List (PName × Option ArgVal)} {c : Call PName ArgVal} {vs : List ArgVal}
    (h : (do let b ← pyBind (plainSig ps) c; pure (b.args.map Prod.snd) : Except Err (List ArgVal)) = .ok vs) :
    ∃ b, pyBind (plainSig ps) c = .ok b ∧ b.args = (ps.map Prod.fst).zip vs ∧ vs.length = ps.length := by
  cases hb : pyBind (plainSig ps) c with
  | error e => rw [hb] at h; cases h
  | ok b =>
    rw [hb] at h
    injection h with h
    refine ⟨b, rfl, ?_⟩
    have hn : b.args.map Prod.fst = ps.map Prod.fst := by
      unfold pyBind plainSig at hb
      split at hb
      · cases hb
      split at hb
      · cases hb
      split at hb
      · cases hb
      split at hb
      · cases hb
      cases ha : bindParams c.kw ps c.pos with
      | error e => rw [ha] at hb; cases hb
      | ok args =>
        rw [ha] at hb
        injection hb with hb
        subst hb
        simp [bindParams_names _ _ _ ha]
    have hl : b.args.length = ps.length := by simpa using congrArg List.length hn
    subst h
    refine ⟨?_, by simpa using hl⟩
    rw [← hn]
    exact (List.zip_unzip b.args).symm.trans (by simp [List.unzip_eq_map])

/-- Refusal looks at the bound parameters only. -/
theorem refuses_congr (env : FactoryEnv) (model : ApiModel) (m : ApiMethod) {b b' : BoundArgs} (h : b.args = b'.args) :
    refuses env model m b = refuses env model m b' := by
  have ha : ∀ n, b.arg n = b'.arg n := fun n => by unfold BoundArgs.arg BoundArgs.get; rw [h]
  simp only [refuses, refusesPlain, ha]

/-- A call, from the values bound. -/
theorem apiCall_of {env : FactoryEnv} {model : ApiModel} {m : ApiMethod} {c : Call PName ArgVal} {vs : List ArgVal}
    {ps : List (PName × Option ArgVal)} (hs : classSig model m = plainSig ps)
    (h : (do let b ← pyBind (plainSig ps) c; pure (b.args.map Prod.snd) : Except Err (List ArgVal)) = .ok vs) :
    apiCall env model m c = (refuses env model m ⟨(ps.map Prod.fst).zip vs, [], []⟩).map (fun _ => vs) := by
  obtain ⟨b, hb, ha, hl⟩ := bound_values h
  unfold apiCall
  rw [hs, hb]
  simp only [bind, Except.bind, pure, Except.pure]
  rw [refuses_congr env model m (b := b) (b' := ⟨(ps.map Prod.fst).zip vs, [], []⟩) ha]
  have hv : b.args.map Prod.snd = vs := by rw [ha, List.map_snd_zip (by simp [hl])]
  rw [hv]
  cases refuses env model m ⟨(ps.map Prod.fst).zip vs, [], []⟩ <;> rfl

/-- The first parameter of `fit`, `save`, `load` is given by position; the other methods need no such condition. -/
def FirstByPosition (m : ApiMethod) (c : Call PName ArgVal) : Prop := m = .fit ∨ m = .save ∨ m = .load → c.pos ≠ []

/-- The parameters of a method after the names of `fit`, `save` and `load` are fixed. -/
theorem classBind_eq (model : ApiModel) (m : ApiMethod) (c : Call PName ArgVal) (h : FirstByPosition m c) :
    (do let b ← pyBind (classSig model m) c; pure (b.args.map Prod.snd) : Except Err (List ArgVal)) = baseCall m c := by
  cases m with
  | fit =>
    unfold classSig baseCall baseSig fitSig
    exact pyBind_first _ _ _ c (h (Or.inl rfl)) (by rcases model with cls | _ <;> [cases cls; skip] <;> simp [fitMatrixName, opt]) (by decide)
  | save => exact pyBind_first _ _ _ c (h (Or.inr (Or.inl rfl))) (by simp) (by simp)
  | load => exact pyBind_first _ _ _ c (h (Or.inr (Or.inr rfl))) (by simp) (by simp)
  | recommend => rfl
  | similarUsers => rfl
  | similarItems => rfl
  | rankItems => rfl

/-- **Argument errors are those of the interface**: with the matrix / file given by position, every class reports an argument error
exactly when the signatures of `RecommenderBase` do. -/
theorem C69_type_error (env : FactoryEnv) (model : ApiModel) (m : ApiMethod) (c : Call PName ArgVal) (h : FirstByPosition m c) :
    apiCall env model m c = .error .typeError ↔ baseCall m c = .error .typeError := by
  rw [← classBind_eq model m c h]
  unfold apiCall
  cases hb : pyBind (classSig model m) c with
  | error e => simp [bind, Except.bind]
  | ok b =>
    simp only [bind, Except.bind, pure, Except.pure, reduceCtorEq, iff_false]
    have : refuses env model m b = .ok () ∨ refuses env model m b = .error .notImplemented ∨
        refuses env model m b = .error .attributeError := by
      have hr : ∀ x, refuseIf x = .ok () ∨ refuseIf x = .error .notImplemented ∨ refuseIf x = .error .attributeError := by
        intro x; cases x <;> simp [refuseIf]
      have hp : ∀ cls m, refusesPlain env cls m b = .ok () ∨ refusesPlain env cls m b = .error .notImplemented ∨
          refusesPlain env cls m b = .error .attributeError := by
        intro cls m
        unfold refusesPlain
        cases cls <;> cases m <;> first | exact hr _ | exact Or.inl rfl
      unfold refuses
      cases model with
      | plain cls => exact hp cls m
      | approximate cls inner s r =>
        cases m <;> simp only <;> first
          | exact hr _
          | exact hp _ _
          | (split
             · exact hr _
             · first
               | exact hp _ _
               | (split
                  · exact Or.inr (Or.inr rfl)
                  · exact hp _ _))
    rcases this with h | h | h <;> rw [h] <;> simp

/-- The values reach the method unchanged: whatever is accepted is what the interface would bind. -/
theorem C69_same_values (env : FactoryEnv) (model : ApiModel) (m : ApiMethod) (c : Call PName ArgVal) (h : FirstByPosition m c)
    {vs : List ArgVal} (hok : apiCall env model m c = .ok vs) : baseCall m c = .ok vs := by
  rw [← classBind_eq model m c h]
  unfold apiCall at hok
  cases hb : pyBind (classSig model m) c with
  | error e => rw [hb] at hok; cases hok
  | ok b =>
    rw [hb] at hok
    simp only [bind, Except.bind, pure, Except.pure] at hok ⊢
    cases hr : refuses env model m b with
    | error e => rw [hr] at hok; cases hok
    | ok u => rw [hr] at hok; exact hok

theorem other_beq (a b : String) : (PName.other a == PName.other b) = decide (a = b) := by
  rw [Bool.eq_iff_iff, beq_iff_eq, decide_eq_true_iff, PName.other.injEq]

attribute [local simp] Except.map other_beq

section Accepts

variable {env : FactoryEnv} {c : Call PName ArgVal}

private theorem accept {model : ApiModel} {m : ApiMethod} {vs : List ArgVal} {ps : List (PName × Option ArgVal)}
    (hs : baseSig m = plainSig ps) (hs' : classSig model m = plainSig ps) (h : baseCall m c = .ok vs) :
    apiCall env model m c = (refuses env model m ⟨(ps.map Prod.fst).zip vs, [], []⟩).map (fun _ => vs) := by
  unfold baseCall at h
  rw [hs] at h
  exact apiCall_of hs' h

/-- **`recommend` works on every model** - whichever class, approximate or not - when no recalculation is asked for and no list of
candidate items is given (partial: not on a Faiss model without a recommendation index, see `C69_faiss_violated`). -/
theorem C69_recommend_partial (model : ApiModel) {userid user_items n liked filter rec items : ArgVal}
    (h : baseCall .recommend c = .ok [userid, user_items, n, liked, filter, rec, items])
    (hrec : truthyVal env rec = false) (hitems : items = .none)
    (hf : ∀ inner s, model ≠ .approximate .faiss inner s false) :
    apiCall env model .recommend c = .ok [userid, user_items, n, liked, filter, rec, items] := by
  rw [accept (model := model) rfl rfl h]
  subst hitems
  cases model with
  | plain cls => cases cls <;> simp [refuses, refusesPlain, refuseIf, canRecalculate, BoundArgs.arg, BoundArgs.get, List.lookup, req, opt, fitMatrixName, hrec]
  | approximate cls inner s r =>
    have hf' : r = false → cls ≠ .faiss := fun hr hc => hf inner s (by rw [hr, hc])
    cases r <;> cases inner <;> simp [hf', refuses, refusesPlain, refuseIf, canRecalculate, BoundArgs.arg, BoundArgs.get, List.lookup, req, opt, fitMatrixName, hrec]

/-- Which plain models accept `recalculate_user=True` in `recommend`: ALS (CPU and GPU) and the item-item models, which work from the
given history anyway; BPR and logistic matrix factorization do not. -/
theorem C69_recommend_recalculate (cls : ApiClass) {userid user_items n liked filter rec items : ArgVal}
    (h : baseCall .recommend c = .ok [userid, user_items, n, liked, filter, rec, items]) (hrec : truthyVal env rec = true) :
    (apiCall env (.plain cls) .recommend c = .error .notImplemented ↔
      cls ∈ [ApiClass.cpuBpr, .cpuLmf, .gpuBpr]) ∧
    (apiCall env (.plain cls) .recommend c = .ok [userid, user_items, n, liked, filter, rec, items] ↔
      cls ∈ [ApiClass.cpuAls, .gpuAls, .itemItem, .cosine, .tfidf, .bm25]) := by
  rw [accept (model := .plain cls) rfl rfl h]
  cases cls <;> simp [refuses, refusesPlain, refuseIf, canRecalculate, BoundArgs.arg, BoundArgs.get, List.lookup, req, opt, fitMatrixName, hrec]

/-- With an index, `recommend` accepts a call exactly if it asks for neither recalculation nor a list of items. -/
theorem C69_recommend_index (cls : ApproxClass) (inner : ApiClass) (s : Bool) {userid user_items n liked filter rec items : ArgVal}
    (h : baseCall .recommend c = .ok [userid, user_items, n, liked, filter, rec, items]) :
    apiCall env (.approximate cls inner s true) .recommend c =
      if items = .none ∧ truthyVal env rec = false then .ok [userid, user_items, n, liked, filter, rec, items]
      else .error .notImplemented := by
  rw [accept (model := .approximate cls inner s true) rfl rfl h]
  by_cases h1 : items = .none <;> cases h2 : truthyVal env rec <;> simp [refuses, refusesPlain, refuseIf, canRecalculate, BoundArgs.arg, BoundArgs.get, List.lookup, req, opt, fitMatrixName, h1, h2]

/-- Without an index, an approximate model accepts the calls of `recommend` that the wrapped model accepts. -/
theorem C69_recommend_wrapped (cls : ApproxClass) (hcls : cls ≠ .faiss) (inner : ApiClass) (s : Bool) :
    apiCall env (.approximate cls inner s false) .recommend c = apiCall env (.plain inner) .recommend c := by
  cases cls
  · rfl
  · rfl
  · exact absurd rfl hcls

/-- **`similar_items` works on every model** when no recalculation is asked for and no list of candidate items is given. -/
theorem C69_similar_items (model : ApiModel) {itemid n rec users filter items : ArgVal}
    (h : baseCall .similarItems c = .ok [itemid, n, rec, users, filter, items])
    (hrec : truthyVal env rec = false) (hitems : items = .none) :
    apiCall env model .similarItems c = .ok [itemid, n, rec, users, filter, items] := by
  rw [accept (model := model) rfl rfl h]
  subst hitems
  cases model with
  | plain cls => cases cls <;> simp [refuses, refusesPlain, refuseIf, canRecalculate, BoundArgs.arg, BoundArgs.get, List.lookup, req, opt, fitMatrixName, hrec]
  | approximate cls inner s r => cases s <;> cases inner <;> simp [refuses, refusesPlain, refuseIf, canRecalculate, BoundArgs.arg, BoundArgs.get, List.lookup, req, opt, fitMatrixName, hrec]

/-- With an index, `similar_items` accepts a call exactly if it gives no list of items and asks for recalculation only when the
wrapped model is CPU ALS: with GPU ALS inside, which can recalculate, the call is refused. -/
theorem C69_similar_items_index (cls : ApproxClass) (inner : ApiClass) (r : Bool) {itemid n rec users filter items : ArgVal}
    (h : baseCall .similarItems c = .ok [itemid, n, rec, users, filter, items]) :
    apiCall env (.approximate cls inner true r) .similarItems c =
      if items = .none ∧ (truthyVal env rec = true → inner = .cpuAls) then .ok [itemid, n, rec, users, filter, items]
      else .error .notImplemented := by
  rw [accept (model := .approximate cls inner true r) rfl rfl h]
  by_cases h1 : items = .none <;> cases h2 : truthyVal env rec <;> by_cases h3 : inner = .cpuAls <;>
    simp [refuses, refusesPlain, refuseIf, canRecalculate, BoundArgs.arg, BoundArgs.get, List.lookup, req, opt, fitMatrixName, h1, h2, h3]

/-- **`fit` works on every model**, if the matrix is given by position and there is no callback. -/
theorem C69_fit (model : ApiModel) {x progress callback : ArgVal} (hpos : c.pos ≠ [])
    (h : baseCall .fit c = .ok [x, progress, callback]) (hcb : truthyVal env callback = false) :
    apiCall env model .fit c = .ok [x, progress, callback] := by
  rw [← classBind_eq model .fit c (fun _ => hpos)] at h
  rw [apiCall_of (ps := [req (fitMatrixName model), opt "show_progress" (.bool true), opt "callback" .none]) rfl h]
  cases model with
  | plain cls => cases cls <;> simp [refuses, refusesPlain, refuseIf, canRecalculate, BoundArgs.arg, BoundArgs.get, List.lookup, req, opt, fitMatrixName, hcb]
  | approximate cls inner s r => cases cls <;> cases inner <;> simp [refuses, refusesPlain, refuseIf, canRecalculate, BoundArgs.arg, BoundArgs.get, List.lookup, req, opt, fitMatrixName, hcb]

/-- With a callback, the factor models accept the call and the item-item models refuse it; an approximate model does what the model it
wraps does. -/
theorem C69_fit_callback (model : ApiModel) {x progress callback : ArgVal} (hpos : c.pos ≠ [])
    (h : baseCall .fit c = .ok [x, progress, callback]) (hcb : truthyVal env callback = true) :
    apiCall env model .fit c =
      if (match model with | .plain cls => cls | .approximate _ inner _ _ => inner) ∈ [ApiClass.itemItem, .cosine, .tfidf, .bm25]
      then .error .notImplemented else .ok [x, progress, callback] := by
  rw [← classBind_eq model .fit c (fun _ => hpos)] at h
  rw [apiCall_of (model := model)
    (ps := [req (fitMatrixName model), opt "show_progress" (.bool true), opt "callback" .none]) rfl h]
  cases model with
  | plain cls => cases cls <;> simp [refuses, refusesPlain, refuseIf, canRecalculate, BoundArgs.arg, BoundArgs.get, List.lookup, req, opt, fitMatrixName, hcb]
  | approximate cls inner s r => cases cls <;> cases inner <;> simp [refuses, refusesPlain, refuseIf, canRecalculate, BoundArgs.arg, BoundArgs.get, List.lookup, req, opt, fitMatrixName, hcb]

/-- `save` and `load` work on the models that are not approximate, if the file is given by position. -/
theorem C69_save_load (cls : ApiClass) {x : ArgVal} {m : ApiMethod} (hm : m = .save ∨ m = .load) (hpos : c.pos ≠ [])
    (h : baseCall m c = .ok [x]) : apiCall env (.plain cls) m c = .ok [x] := by
  rw [← classBind_eq (.plain cls) m c (fun _ => hpos)] at h
  rcases hm with rfl | rfl
  · rw [apiCall_of (model := .plain cls) (ps := [req (saveParamName (.plain cls))]) rfl h]
    cases cls <;> simp [refuses, refusesPlain, refuseIf, canRecalculate, BoundArgs.arg, BoundArgs.get, List.lookup, req, opt, fitMatrixName]
  · rw [apiCall_of (model := .plain cls) (ps := [req (loadParamName (.plain cls))]) rfl h]
    cases cls <;> simp [refuses, refusesPlain, refuseIf, canRecalculate, BoundArgs.arg, BoundArgs.get, List.lookup, req, opt, fitMatrixName]

/-- `similar_users` works on the factor models, for every call that the interface allows. -/
theorem C69_similar_users (cls : ApiClass) (hcls : cls ∉ [ApiClass.itemItem, .cosine, .tfidf, .bm25]) :
    Substitutable (baseCall .similarUsers) (apiCall env (.plain cls) .similarUsers) := by
  intro c vs h
  rw [accept (model := .plain cls) rfl rfl h]
  cases cls <;> simp [refuses, refusesPlain, refuseIf, canRecalculate, BoundArgs.arg, BoundArgs.get, List.lookup, req, opt, fitMatrixName] at hcls ⊢

/-- `rank_items` works on the models that are not approximate when no recalculation is asked for. -/
theorem C69_rank_items (cls : ApiClass) {userid user_items selected rec : ArgVal}
    (h : baseCall .rankItems c = .ok [userid, user_items, selected, rec]) (hrec : truthyVal env rec = false) :
    apiCall env (.plain cls) .rankItems c = .ok [userid, user_items, selected, rec] := by
  rw [accept (model := .plain cls) rfl rfl h]
  cases cls <;> simp [refuses, refusesPlain, refuseIf, canRecalculate, BoundArgs.arg, BoundArgs.get, List.lookup, req, opt, fitMatrixName, hrec]

/-- The call of `recommend` that `rank_items` makes (`implicit/recommender_base.py:209-215`). -/
def rankItemsForward (userid user_items selected rec : ArgVal) : Call PName ArgVal :=
  ⟨[userid, user_items], [(.other "recalculate_user", rec), (.other "items", selected),
    (.other "filter_already_liked_items", .bool false)]⟩

/-- `rank_items` is accepted exactly if the call of `recommend` it stands for is, on every model; that call has `N = 10`, so at most
ten of the selected items are returned. -/
theorem C69_rank_items_recommend (model : ApiModel) {userid user_items selected rec : ArgVal}
    (h : baseCall .rankItems c = .ok [userid, user_items, selected, rec]) :
    baseCall .recommend (rankItemsForward userid user_items selected rec) =
        .ok [userid, user_items, .num 10, .bool false, .none, rec, selected] ∧
      ((apiCall env model .rankItems c).isOk = true ↔
        (apiCall env model .recommend (rankItemsForward userid user_items selected rec)).isOk = true) := by
  have hb : baseCall .recommend (rankItemsForward userid user_items selected rec) =
      .ok [userid, user_items, .num 10, .bool false, .none, rec, selected] := rfl
  refine ⟨hb, ?_⟩
  rw [accept (model := model) rfl rfl h, accept (model := model) rfl rfl hb]
  cases model with
  | plain cls => cases cls <;> cases hr : truthyVal env rec <;> simp [refuses, refusesPlain, refuseIf, canRecalculate, BoundArgs.arg, BoundArgs.get, List.lookup, req, opt, fitMatrixName, hr, Except.isOk, Except.toBool]
  | approximate cls inner s r =>
    cases cls <;> cases r <;> cases inner <;> cases hr : truthyVal env rec <;> by_cases h1 : selected = .none <;>
      simp [refuses, refusesPlain, refuseIf, canRecalculate, BoundArgs.arg, BoundArgs.get, List.lookup, req, opt, fitMatrixName, hr, h1, Except.isOk, Except.toBool]

/-! ## Where the interface does not hold -/

/-- The matrix given by the name the interface has for it, `fit(user_items=X)`, is an argument error on every item-item and every
approximate class. -/
theorem C69_fit_keyword_violated (model : ApiModel) (x : ArgVal)
    (hm : (∃ cls inner s r, model = .approximate cls inner s r) ∨
      ∃ cls ∈ [ApiClass.itemItem, .cosine, .tfidf, .bm25], model = .plain cls) :
    baseCall .fit ⟨[], [(.other "user_items", x)]⟩ = .ok [x, .bool true, .none] ∧
      apiCall env model .fit ⟨[], [(.other "user_items", x)]⟩ = .error .typeError := by
  refine ⟨rfl, ?_⟩
  rcases hm with ⟨cls, inner, s, r, rfl⟩ | ⟨cls, hcls, rfl⟩
  · rfl
  · cases cls <;> first | rfl | (exfalso; revert hcls; decide)

/-- The file given by name: `save(file=f)` is an argument error on the CPU and item-item models, `load(fileobj_or_path=f)` on the GPU
models. -/
theorem C69_file_keyword_violated (x : ArgVal) :
    (baseCall .save ⟨[], [(.other "file", x)]⟩ = .ok [x] ∧
      ∀ cls ∈ [ApiClass.cpuAls, .cpuBpr, .cpuLmf, .itemItem, .cosine, .tfidf, .bm25],
        apiCall env (.plain cls) .save ⟨[], [(.other "file", x)]⟩ = .error .typeError) ∧
    (baseCall .load ⟨[], [(.other "fileobj_or_path", x)]⟩ = .ok [x] ∧
      ∀ cls ∈ [ApiClass.gpuAls, .gpuBpr],
        apiCall env (.plain cls) .load ⟨[], [(.other "fileobj_or_path", x)]⟩ = .error .typeError) := by
  refine ⟨⟨rfl, ?_⟩, rfl, ?_⟩
  · intro cls h
    cases cls <;> first | rfl | (exfalso; revert h; decide)
  · intro cls h
    cases cls <;> first | rfl | (exfalso; revert h; decide)

/-- `similar_users` is refused by the item-item and approximate models, however it is called. -/
theorem C69_similar_users_violated (model : ApiModel) {vs : List ArgVal} (h : baseCall .similarUsers c = .ok vs)
    (hm : (∃ cls inner s r, model = .approximate cls inner s r) ∨
      ∃ cls ∈ [ApiClass.itemItem, .cosine, .tfidf, .bm25], model = .plain cls) :
    apiCall env model .similarUsers c = .error .notImplemented := by
  rw [accept (model := model) rfl rfl h]
  rcases hm with ⟨cls, inner, s, r, rfl⟩ | ⟨cls, hcls, rfl⟩
  · simp [refuses, refusesPlain, refuseIf, canRecalculate, BoundArgs.arg, BoundArgs.get, List.lookup, req, opt, fitMatrixName]
  · cases cls <;> simp [refuses, refusesPlain, refuseIf, canRecalculate, BoundArgs.arg, BoundArgs.get, List.lookup, req, opt, fitMatrixName] at hcls ⊢

/-- An approximate model can be neither saved nor loaded. -/
theorem C69_approximate_save_violated (cls : ApproxClass) (inner : ApiClass) (s r : Bool) {vs : List ArgVal} {m : ApiMethod}
    (hm : m = .save ∨ m = .load) (hpos : c.pos ≠ []) (h : baseCall m c = .ok vs) :
    apiCall env (.approximate cls inner s r) m c = .error .notImplemented := by
  rw [← classBind_eq (.approximate cls inner s r) m c (fun _ => hpos)] at h
  rcases hm with rfl | rfl
  · rw [apiCall_of (model := .approximate cls inner s r) (ps := [req (saveParamName (.approximate cls inner s r))]) rfl h]
    simp [refuses, refusesPlain, refuseIf, canRecalculate, BoundArgs.arg, BoundArgs.get, List.lookup, req, opt, fitMatrixName]
  · rw [apiCall_of (model := .approximate cls inner s r) (ps := [req (loadParamName (.approximate cls inner s r))]) rfl h]
    simp [refuses, refusesPlain, refuseIf, canRecalculate, BoundArgs.arg, BoundArgs.get, List.lookup, req, opt, fitMatrixName]

/-- `rank_items` is refused by an approximate model with a recommendation index, for every list of items. -/
theorem C69_rank_items_violated (cls : ApproxClass) (inner : ApiClass) (s : Bool) {userid user_items selected rec : ArgVal}
    (h : baseCall .rankItems c = .ok [userid, user_items, selected, rec]) (hsel : selected ≠ .none) :
    apiCall env (.approximate cls inner s true) .rankItems c = .error .notImplemented := by
  rw [accept (model := .approximate cls inner s true) rfl rfl h]
  simp [refuses, refusesPlain, refuseIf, canRecalculate, BoundArgs.arg, BoundArgs.get, List.lookup, req, opt, fitMatrixName, hsel]

/-- A Faiss model built with `approximate_recommend=False` cannot recommend at all: every call that fits the interface ends in an
`AttributeError`. -/
theorem C69_faiss_violated (inner : ApiClass) (s : Bool) {vs : List ArgVal} (h : baseCall .recommend c = .ok vs) :
    apiCall env (.approximate .faiss inner s false) .recommend c = .error .attributeError := by
  rw [accept (model := .approximate .faiss inner s false) rfl rfl h]
  simp [refuses]

/-- An approximate ALS model refuses `recalculate_user=True` with an index and accepts it without one: the check for
`"+_user_factor"` never succeeds. -/
theorem C69_recalculate_violated (cls : ApproxClass) (hcls : cls ≠ .faiss) (s : Bool) {userid user_items n liked filter rec items : ArgVal}
    (h : baseCall .recommend c = .ok [userid, user_items, n, liked, filter, rec, items]) (hrec : truthyVal env rec = true) :
    apiCall env (.approximate cls .cpuAls s true) .recommend c = .error .notImplemented ∧
      apiCall env (.approximate cls .cpuAls s false) .recommend c = .ok [userid, user_items, n, liked, filter, rec, items] := by
  constructor
  · rw [C69_recommend_index cls .cpuAls s h, if_neg (by simp [hrec])]
  · rw [C69_recommend_wrapped cls hcls]
    exact ((C69_recommend_recalculate .cpuAls h hrec).2).2 (by decide)

end Accepts

/-! ## Examples -/

/-- No CUDA; every object is true. -/
private def exEnv : FactoryEnv := ⟨false, fun _ => true, .ok⟩

/-- `model.recommend(3, X, filter_items=L)` has the same meaning everywhere: `N = 10`, liked items removed, nothing recalculated. -/
example (cls : ApiClass) : apiCall exEnv (.plain cls) .recommend ⟨[.num 3, .obj 1], [(.other "filter_items", .obj 2)]⟩ =
    .ok [.num 3, .obj 1, .num 10, .bool true, .obj 2, .bool false, .none] :=
  C69_recommend_partial (.plain cls) rfl rfl rfl (by simp)

/-- `model.fit(X, show_progress=False)`. -/
example (model : ApiModel) : apiCall exEnv model .fit ⟨[.obj 1], [(.other "show_progress", .bool false)]⟩ =
    .ok [.obj 1, .bool false, .none] :=
  C69_fit model (by simp) rfl rfl

/-- `model.recommend(3)` lacks the matrix, on every model. -/
example (model : ApiModel) : apiCall exEnv model .recommend ⟨[.num 3], []⟩ = .error .typeError :=
  (C69_type_error exEnv model .recommend _ (by rintro (h | h | h) <;> cases h)).2 rfl

/-- A BPR model cannot recalculate; an item-item model has no `similar_users`. -/
example : apiCall exEnv (.plain .cpuBpr) .recommend ⟨[.num 3, .obj 1], [(.other "recalculate_user", .bool true)]⟩ =
      .error .notImplemented ∧
    apiCall exEnv (.plain .bm25) .similarUsers ⟨[.num 3], []⟩ = .error .notImplemented ∧
    apiCall exEnv (.plain .cpuBpr) .similarUsers ⟨[.num 3], []⟩ = .ok [.num 3, .num 10, .none, .none] :=
  ⟨rfl, rfl, rfl⟩

/-- `rank_items` on approximate ALS. -/
example : apiCall exEnv (.approximate .annoy .cpuAls true true) .rankItems ⟨[.num 3, .obj 1, .obj 2], []⟩ =
      .error .notImplemented ∧
    apiCall exEnv (.plain .cpuAls) .rankItems ⟨[.num 3, .obj 1, .obj 2], []⟩ = .ok [.num 3, .obj 1, .obj 2, .bool false] :=
  ⟨rfl, rfl⟩

end Implicit
