import Verif.Model.KnnCalls
import Verif.Lemmas.KnnScorer
import Verif.Props.C23
import Verif.Props.C74

/-!
# C74 — a call that raises leaves the model as it was: item-item models

Every call except a `fit` that returns leaves the object exactly as it was, the workspace inside the scorer included, as long as no
memory is accessed out of bounds (C49, C76).  The exception is a `fit` whose result has at least `2^31` slots.
-/

set_option linter.unusedSectionVars false

namespace Implicit

variable {R : Type} [LinearOrder R] [Field R]

namespace Spec

/-- A matrix with `n` columns for which `fit` stays within the range of `int`. -/
def TameKnnCall : KnnCall R → Prop
  | .fit n K (.ok M) _ => n * K < 2 ^ 31 ∧ ∀ r ∈ M, ∀ e ∈ r, e.1 < n
  | _ => True

/-- The calls a caller may leave out: all but a `fit` that returned. -/
def ForgettableKnn {α : Type} : KnnCall R → Except Err α → Prop
  | .fit _ _ _ _, o => ∃ e, o = .error e
  | _, _ => True

/-- An object on which `fit` has not been called, or whose last `fit` returned a matrix without columns beyond its rows. -/
def SoundKnn (o : KnnObject R) : Prop :=
  (o.similarity = none ∧ o.scorer = none) ∨
    ∃ sim : SpRows R, (∀ r ∈ sim, ∀ e ∈ r, e.1 < sim.length) ∧ o.similarity = some sim ∧
      o.scorer = some (KnnState.ofSimilarity sim)

end Spec

theorem soundKnn_iff {o : KnnObject R} : Spec.SoundKnn o ↔
    o = .new ∨ ∃ sim, SquareRows sim ∧ o = .fitted sim := by
  rcases o with ⟨a, b⟩
  unfold Spec.SoundKnn KnnObject.new KnnObject.fitted
  simp only [KnnObject.mk.injEq]
  rfl

/-- On a fitted object the calls are those of `Model/NearestNeighbours.lean`. -/
theorem objRecommendOne_fitted (H : HeapImpl (R × Nat) pairLt) (lowest : R) (sim : SpRows R) (rows : SpRows R) (N : Nat)
    (liked : Bool) (F S : Option (List Int)) :
    objRecommendOne H lowest (.fitted sim) rows N liked F S =
      ((knnRecommendOne H lowest (KnnState.ofSimilarity sim) rows N liked F S).1,
        ⟨some sim, some (knnRecommendOne H lowest (KnnState.ofSimilarity sim) rows N liked F S).2⟩) := by
  have hplan : objPlan (KnnObject.fitted sim) N F S = knnPlan (KnnState.ofSimilarity sim).similarity.length N F S := by
    cases F <;> cases S <;> rfl
  unfold objRecommendOne knnRecommendOne
  rw [hplan]
  cases knnPlan (KnnState.ofSimilarity sim).similarity.length N F S with
  | error e => rfl
  | ok n =>
    cases rows with
    | nil => rfl
    | cons row rows =>
      simp only [KnnObject.fitted]
      cases scorerRecommend H (KnnState.ofSimilarity sim).similarity (KnnState.ofSimilarity sim).acc row n liked <;> rfl

theorem objRecommendOne_state (H : HeapImpl (R × Nat) pairLt) (lowest : R) {o : KnnObject R} (ho : Spec.SoundKnn o)
    (rows : SpRows R) (N : Nat) (liked : Bool) (F S : Option (List Int)) :
    (objRecommendOne H lowest o rows N liked F S).2 = o := by
  rcases soundKnn_iff.mp ho with rfl | ⟨sim, hsim, rfl⟩
  · unfold objRecommendOne
    cases objPlan (KnnObject.new : KnnObject R) N F S <;> rfl
  · rw [objRecommendOne_fitted]
    simp only [knnRecommendOne_state H lowest sim hsim]
    rfl

theorem batchCall_pure {σ : Type} (lowest : R) (N : Nat)
    (func : σ → Nat → Option (SpRows R) → Except Err (List (Int × R)) × σ) (s : σ)
    (pure : ∀ id a, (func s id a).2 = s) (rows : Option (SpRows R)) : ∀ (ids : List Nat) (i : Nat),
    (batchCall lowest N func rows i ids s).2 = s
  | [], i => rfl
  | id :: ids, i => by
    unfold batchCall
    cases batchArg rows i with
    | error e => rfl
    | ok a =>
      have h := pure id a
      simp only
      rcases hf : func s id a with ⟨r, s'⟩
      rw [hf] at h
      simp only at h
      subst h
      cases r with
      | error e => rfl
      | ok out =>
        simp only
        have ih := batchCall_pure lowest N func s' pure rows ids (i + 1)
        rcases hb : batchCall lowest N func rows (i + 1) ids s' with ⟨r, s''⟩
        rw [hb] at ih
        cases r <;> exact ih

theorem objRecommend_state (H : HeapImpl (R × Nat) pairLt) (lowest lowest32 : R) {o : KnnObject R} (ho : Spec.SoundKnn o)
    (ids : Ids) (isCsr : Bool) (rows : SpRows R) (N : Nat) (liked : Bool) (F S : Option (List Int)) :
    (objRecommend H lowest lowest32 o ids isCsr rows N liked F S).2 = o := by
  unfold objRecommend
  split
  · rfl
  · cases ids with
    | one u =>
      have h := objRecommendOne_state H lowest ho rows N liked F S
      simp only
      rcases hr : objRecommendOne H lowest o rows N liked F S with ⟨r, o'⟩
      rw [hr] at h
      cases r <;> exact h
    | many us =>
      simp only
      split
      · rfl
      · have h := batchCall_pure lowest32 N
          (fun o _ row => objRecommendOne H lowest o (row.getD []) N liked F S) o
          (fun _ a => objRecommendOne_state H lowest ho _ N liked F S) (some rows) us 0
        rcases hb : batchCall lowest32 N
          (fun o _ row => objRecommendOne H lowest o (row.getD []) N liked F S) (some rows) 0 us o with ⟨r, o'⟩
        rw [hb] at h
        cases r <;> exact h

theorem knnFit_square (H : HeapImpl (R × Nat) pairLt) {n K : Nat} (hnK : n * K < 2 ^ 31) {M : SpRows R}
    (hM : ∀ r ∈ M, ∀ e ∈ r, e.1 < n) {callback : Bool} {sim : SpRows R} (h : knnFit H n K M callback = .ok sim) :
    SquareRows sim := by
  cases callback with
  | true => cases h
  | false =>
    rcases Nat.eq_zero_or_pos K with rfl | hK
    · have h' : (do let cells ← allPairsKnn H n 0 M; pure (cooToCsr n cells) : Except Err (SpRows R)) = .ok sim := h
      unfold allPairsKnn at h'
      cases hl : knnLoop H n 0 M 0 (transposeRows n M) (Accum.new n) with
      | error e => rw [hl] at h'; cases h'
      | ok r =>
        rw [hl] at h'
        simp only [bind, Except.bind] at h'
        cases hw : writeAll (List.replicate (knnAllocated n 0) ((0, 0, 0) : KnnCell R)) r.1 with
        | error e => rw [hw] at h'; cases h'
        | ok cells =>
          rw [hw] at h'
          have hlen := writeAll_length hw
          have hz : cells = [] := by
            apply List.length_eq_zero_iff.mp
            rw [hlen]
            simp [knnAllocated]
          subst hz
          cases h'
          intro r hr e he
          unfold cooToCsr at hr
          obtain ⟨k, -, rfl⟩ := List.mem_map.mp hr
          simp [coalesce] at he
    · obtain ⟨sim', h', hlen, hrows⟩ := knnFit_rows H n K hK hnK.le M hM
      rw [h] at h'
      cases h'
      intro r hr e he
      obtain ⟨i, hi⟩ := List.getElem?_of_mem hr
      have hin : i < n := by
        rw [← hlen]
        exact (List.getElem?_eq_some_iff.mp hi).1
      obtain ⟨row, out, h1, -, h3, h4⟩ := hrows i hin
      rw [hi] at h1
      cases h1
      rw [hlen]
      rcases (h4 e).mp he with h5 | ⟨rfl, rfl, -⟩
      · obtain ⟨row, hrow, -, v, hv⟩ := (h3.mem e h5).1
        exact hM row hrow (e.1, v) hv
      · exact hin

/-- One call on a sound object: the object is sound afterwards; it is the same object unless the call was a `fit` that returned. -/
theorem knnCall_sound (env : KnnEnv R) {o : KnnObject R} (ho : Spec.SoundKnn o) {c : KnnCall R} (hc : Spec.TameKnnCall c) :
    Spec.SoundKnn (knnCall env o c).2 ∧ (Spec.ForgettableKnn c (knnCall env o c).1 → (knnCall env o c).2 = o) := by
  cases c with
  | recommend ids isCsr rows N liked F S =>
    have h : (knnCall env o (.recommend ids isCsr rows N liked F S)).2 = o := objRecommend_state _ _ _ ho _ _ _ _ _ _ _
    rw [h]
    exact ⟨ho, fun _ => rfl⟩
  | rankItems ids isCsr rows selected =>
    have h : (knnCall env o (.rankItems ids isCsr rows selected)).2 = o := objRecommend_state _ _ _ ho _ _ _ _ _ _ _
    rw [h]
    exact ⟨ho, fun _ => rfl⟩
  | similarItems => exact ⟨ho, fun _ => rfl⟩
  | similarUsers => exact ⟨ho, fun _ => rfl⟩
  | fit n K weighted callback =>
    unfold knnCall objFit
    simp only
    cases weighted with
    | error e => exact ⟨ho, fun _ => rfl⟩
    | ok M =>
      obtain ⟨hnK, hM⟩ := hc
      simp only
      cases hf : knnFit env.heap n K M callback with
      | error e => exact ⟨ho, fun _ => rfl⟩
      | ok sim =>
        have hall : ¬ 2 ^ 31 ≤ knnAllocated n K := by
          unfold knnAllocated
          have := Nat.mod_le (n * K) (2 ^ 32)
          omega
        simp only [if_neg hall]
        refine ⟨soundKnn_iff.mpr (.inr ⟨sim, knnFit_square _ hnK hM hf, rfl⟩), ?_⟩
        rintro ⟨e, he⟩
        cases he

/-! ## The answers of a fitted object -/

/-- An object whose scorer is in the state `st`. -/
def ofState (st : KnnState R) : KnnObject R := ⟨some st.similarity, some st⟩

theorem objRecommendOne_ofState (H : HeapImpl (R × Nat) pairLt) (lowest : R) (st : KnnState R) (rows : SpRows R) (N : Nat)
    (liked : Bool) (F S : Option (List Int)) :
    objRecommendOne H lowest (ofState st) rows N liked F S =
      ((knnRecommendOne H lowest st rows N liked F S).1, ofState (knnRecommendOne H lowest st rows N liked F S).2) := by
  have hplan : objPlan (ofState st) N F S = knnPlan st.similarity.length N F S := by
    cases F <;> cases S <;> rfl
  unfold objRecommendOne knnRecommendOne
  rw [hplan]
  cases knnPlan st.similarity.length N F S with
  | error e => rfl
  | ok n =>
    cases rows with
    | nil => rfl
    | cons row rows =>
      dsimp only [ofState]
      cases scorerRecommend H st.similarity st.acc row n liked <;> rfl

theorem batchCall_image {σ τ : Type} (φ : σ → τ) (lowest : R) (N : Nat)
    (func : σ → Nat → Option (SpRows R) → Except Err (List (Int × R)) × σ)
    (func' : τ → Nat → Option (SpRows R) → Except Err (List (Int × R)) × τ)
    (h : ∀ s id a, func' (φ s) id a = ((func s id a).1, φ (func s id a).2)) (rows : Option (SpRows R)) :
    ∀ (ids : List Nat) (i : Nat) (s : σ), batchCall lowest N func' rows i ids (φ s) =
      ((batchCall lowest N func rows i ids s).1, φ (batchCall lowest N func rows i ids s).2)
  | [], _, _ => rfl
  | id :: ids, i, s => by
    unfold batchCall
    cases batchArg rows i with
    | error e => rfl
    | ok a =>
      dsimp only
      rw [h]
      generalize func s id a = r
      rcases r with ⟨_ | out, s'⟩
      · rfl
      · dsimp only
        rw [batchCall_image φ lowest N func func' h rows ids (i + 1) s']
        generalize batchCall lowest N func rows (i + 1) ids s' = q
        rcases q with ⟨_ | rest, s''⟩ <;> rfl

/-- **C74** (item-item answers).  On a fitted object every query answers as the model of the other claims does. -/
theorem C74_item_item_answers (env : KnnEnv R) (sim : SpRows R) :
    (∀ ids isCsr rows N liked F S, (knnCall env (.fitted sim) (.recommend ids isCsr rows N liked F S)).1 =
      (knnRecommend env.heap env.lowest env.lowest32 (KnnState.ofSimilarity sim) ids isCsr rows N liked F S).1.map some) ∧
    (∀ ids isCsr rows selected, (knnCall env (.fitted sim) (.rankItems ids isCsr rows selected)).1 =
      (knnRankItems env.heap env.lowest env.lowest32 (KnnState.ofSimilarity sim) ids isCsr rows selected).1.map some) ∧
    (∀ ids N recalculate F S isArray, (knnCall env (.fitted sim) (.similarItems ids N recalculate F S isArray)).1 =
      (knnSimilar env.argsort env.lowest env.lowest32 sim ids N recalculate F S isArray).map some) ∧
    (knnCall env (.fitted sim) .similarUsers).1 = knnSimilarUsers.map some := by
  have hrec : ∀ ids isCsr rows N liked F S, (objRecommend env.heap env.lowest env.lowest32 (.fitted sim) ids isCsr rows N liked F S).1 =
      (knnRecommend env.heap env.lowest env.lowest32 (KnnState.ofSimilarity sim) ids isCsr rows N liked F S).1 := by
    intro ids isCsr rows N liked F S
    unfold objRecommend knnRecommend
    cases isCsr
    · rfl
    · cases ids with
      | one i =>
        have hf : (KnnObject.fitted sim : KnnObject R) = ofState (KnnState.ofSimilarity sim) := rfl
        simp only [Bool.not_true, Bool.false_eq_true, if_false]
        rw [hf, objRecommendOne_ofState]
        generalize knnRecommendOne env.heap env.lowest (KnnState.ofSimilarity sim) rows N liked F S = r
        rcases r with ⟨_ | _, _⟩ <;> rfl
      | many us =>
        simp only [Bool.not_true, Bool.false_eq_true, if_false]
        by_cases hl : rows.length ≠ us.length
        · rw [if_pos hl, if_pos hl]
        · rw [if_neg hl, if_neg hl]
          have hb := batchCall_image ofState env.lowest32 N (knnBatchFunc env.heap env.lowest N liked F S)
            (fun o _ row => objRecommendOne env.heap env.lowest o (row.getD []) N liked F S)
            (fun s _ a => objRecommendOne_ofState _ _ _ _ _ _ _ _) (some rows) us 0 (KnnState.ofSimilarity sim)
          have hf : (KnnObject.fitted sim : KnnObject R) = ofState (KnnState.ofSimilarity sim) := rfl
          rw [hf, hb]
          generalize batchCall env.lowest32 N (knnBatchFunc env.heap env.lowest N liked F S) (some rows) 0 us
            (KnnState.ofSimilarity sim) = r
          rcases r with ⟨_ | _, _⟩ <;> rfl
  have hone : ∀ i N F S isArray, objSimilarOne env.argsort env.lowest (.fitted sim) i N F S isArray =
      knnSimilarOne env.argsort env.lowest sim i N F S isArray := by
    intro i N F S isArray
    cases F <;> cases S <;> rfl
  refine ⟨fun ids isCsr rows N liked F S => congrArg (Except.map some) (hrec ids isCsr rows N liked F S),
    fun ids isCsr rows selected => congrArg (Except.map some) (hrec ids isCsr rows 10 false none (some selected)),
    fun ids N recalculate F S isArray => congrArg (Except.map some) ?_, rfl⟩
  unfold objSimilar knnSimilar
  simp only [hone]
  cases ids <;> rfl

/-- **C74** (item-item models, one call).  A call that raises, whatever it is, leaves the object exactly as it was: similarity matrix, scorer and the
workspace of the scorer. -/
theorem C74_item_item_call_partial (env : KnnEnv R) (o : KnnObject R) (ho : Spec.SoundKnn o) (c : KnnCall R)
    (hc : Spec.TameKnnCall c) (e : Err) (_hsafe : e ≠ .undefinedBehaviour) (h : (knnCall env o c).1 = .error e) :
    (knnCall env o c).2 = o := by
  refine (knnCall_sound env ho hc).2 ?_
  cases c with
  | fit => exact ⟨e, h⟩
  | recommend => trivial
  | rankItems => trivial
  | similarItems => trivial
  | similarUsers => trivial

theorem knnCalls_picked (env : KnnEnv R) : ∀ (calls : List (KnnCall R)) (keep : List Bool) (o : KnnObject R),
    Spec.SoundKnn o → keep.length = calls.length → (∀ c ∈ calls, Spec.TameKnnCall c) →
    (∀ (k : Nat) c r, calls[k]? = some c → (knnCalls env o calls).1[k]? = some r → keep[k]? = some false →
      Spec.ForgettableKnn c r) →
    knnCalls env o (Spec.picked calls keep) = (Spec.picked (knnCalls env o calls).1 keep, (knnCalls env o calls).2)
  | [], keep, o, _, hl, _, _ => by
    have : keep = [] := List.length_eq_zero_iff.mp hl
    subst this
    rfl
  | c :: calls, [], _, _, hl, _, _ => by simp at hl
  | c :: calls, k :: keep, o, ho, hl, ht, hf => by
    have hl' : keep.length = calls.length := by simpa using hl
    obtain ⟨hs, hsame⟩ := knnCall_sound env ho (ht c (by simp))
    have ih := knnCalls_picked env calls keep (knnCall env o c).2 hs hl' (fun d hd => ht d (List.mem_cons_of_mem _ hd))
      (fun j d r h1 h2 h3 => hf (j + 1) d r (by simpa using h1) (by simpa [knnCalls] using h2) (by simpa using h3))
    have hrun : knnCalls env o (c :: calls) = ((knnCall env o c).1 :: (knnCalls env (knnCall env o c).2 calls).1,
      (knnCalls env (knnCall env o c).2 calls).2) := rfl
    rw [hrun]
    simp only [picked_cons]
    cases k with
    | true =>
      rw [if_pos rfl, if_pos rfl]
      show ((knnCall env o c).1 :: (knnCalls env (knnCall env o c).2 (Spec.picked calls keep)).1,
        (knnCalls env (knnCall env o c).2 (Spec.picked calls keep)).2) = _
      rw [ih]
    | false =>
      rw [if_neg (by simp), if_neg (by simp)]
      rw [hsame (hf 0 c _ rfl rfl rfl)] at ih ⊢
      exact ih

/-- **C74** (item-item models, histories).  Leave out of a history any calls, except a `fit` that returned: every remaining call has the outcome it
had, and the object at the end is the same.  The history may start with an unfitted object. -/
theorem C74_item_item_partial (env : KnnEnv R) (o : KnnObject R) (ho : Spec.SoundKnn o) (calls : List (KnnCall R)) (keep : List Bool)
    (hl : keep.length = calls.length) (ht : ∀ c ∈ calls, Spec.TameKnnCall c)
    (_hsafe : ∀ r ∈ (knnCalls env o calls).1, r ≠ .error .undefinedBehaviour)
    (hf : ∀ (k : Nat) c r, calls[k]? = some c → (knnCalls env o calls).1[k]? = some r → keep[k]? = some false →
      Spec.ForgettableKnn c r) :
    (knnCalls env o (Spec.picked calls keep)).1 = Spec.picked (knnCalls env o calls).1 keep ∧
      (knnCalls env o (Spec.picked calls keep)).2 = (knnCalls env o calls).2 := by
  rw [knnCalls_picked env calls keep o ho hl ht hf]
  exact ⟨rfl, rfl⟩

/-- **C74 is violated** by a `fit` of an item-item model with at least `2^31` slots (`items * K`): it raises when the scorer is made, after `similarity`
was replaced.  `recommend` then works with the old matrix, `similar_items` with the new one; here every model, and a matrix without ratings. -/
theorem C74_item_item_fit_violated (env : KnnEnv R) (sim : SpRows R) (n K : Nat) (hK : 1 ≤ K)
    (hnK : n * K = 2 ^ 31) (users : Nat) :
    ∃ new : SpRows R, knnCall env (.fitted sim) (.fit n K (.ok (List.replicate users [])) false) =
        (.error .valueError, ⟨some new, some (KnnState.ofSimilarity sim)⟩) ∧ new.length = n := by
  obtain ⟨new, h, hlen, -⟩ := knnFit_rows env.heap n K hK hnK.le (List.replicate users [])
    (fun r hr e he => by rw [List.eq_of_mem_replicate hr] at he; cases he)
  refine ⟨new, ?_, hlen⟩
  have hall : 2 ^ 31 ≤ knnAllocated n K := by
    unfold knnAllocated
    rw [hnK]
    norm_num
  unfold knnCall objFit
  simp only [h, if_pos hall]
  rfl

/-! ## Examples -/

/-- The environment of the examples: insertion into sorted lists. -/
def exactArgSort : ArgSort Rat where
  sort l := l.insertionSort fun a b => a.2 ≤ b.2
  perm l := List.perm_insertionSort _ l
  sorted l := by
    have : IsTrans (Int × Rat) fun a b => a.2 ≤ b.2 := ⟨fun _ _ _ h1 h2 => le_trans h1 h2⟩
    have : Std.Total fun a b : Int × Rat => a.2 ≤ b.2 := ⟨fun a b => le_total a.2 b.2⟩
    exact List.pairwise_insertionSort _ l

/-- What the caller sees of a call on an item-item model. -/
def knnOutcome (r : Except Err (Option (AnnAnswer Rat))) : Except Err (List (Int × Rat)) :=
  match r with
  | .ok (some (.one l)) => .ok l
  | .ok _ => .ok []
  | .error e => .error e

/-- A history from an unfitted object: two calls before `fit`, a `fit` refused for its callback, `fit`, raising queries, `recommend`. -/
example :
    let env : KnnEnv Rat := ⟨insertionHeap, exactArgSort, -9, -8⟩
    let ask : KnnCall Rat := .recommend (.one 0) true [[(0, 1)]] 2 false none none
    let calls : List (KnnCall Rat) := [ask, .recommend (.one 0) true [[(0, 1)]] 2 false none (some [0]),
      .fit 2 2 (.ok [[(0, 1), (1, 2)]]) true, .fit 2 2 (.ok [[(0, 1), (1, 2)]]) false, .similarUsers,
      .recommend (.one 0) true [[(0, 1)]] 2 false none (some [7]), ask, .similarItems (.one 0) 1 true none none true, ask]
    let keep := [true, false, false, true, false, false, true, false, true]
    (knnCalls env .new calls).1.map knnOutcome = [.error .attributeError, .error .attributeError, .error .notImplemented, .ok [],
        .error .notImplemented, .error .indexError, .ok [(1, 2), (0, 1)], .error .notImplemented, .ok [(1, 2), (0, 1)]] ∧
      (knnCalls env .new (Spec.picked calls keep)).1.map knnOutcome =
        [.error .attributeError, .ok [], .ok [(1, 2), (0, 1)], .ok [(1, 2), (0, 1)]] := by
  decide +kernel

/-- The hypotheses of `C74_item_item_fit_violated` can be met. -/
example : (2 ^ 11 : Nat) * 2 ^ 20 = 2 ^ 31 := by norm_num

end Implicit
