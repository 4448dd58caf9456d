import Verif.Lemmas.Queries
import Verif.Lemmas.Solver
import Verif.Lemmas.Heap
import Verif.Model.Ann
import Verif.Props.C10

/-!
# C09 — queries do not modify the model
-/

set_option linter.unusedSectionVars false

namespace Implicit

variable {R : Type} [LinearOrder R] [Field R] {f : Nat}

/-- **C09** (factors).  No sequence of queries changes a learned factor, whatever the state of the
caches and whether the queries return or raise. -/
theorem C09_factors_unchanged (env : Env f R) (st : MFState f R) (qs : List (Query f R)) :
    (runQueries env st qs).2.user = st.user ∧ (runQueries env st qs).2.item = st.item :=
  runQueries_same env qs st

/-- **C09** (answers).  On a freshly trained model every query of every sequence of queries answers
what it would have answered as the very first one. -/
theorem C09_answers (env : Env f R) (m : Factors f R) (before : List (Query f R)) (q : Query f R) :
    (runQuery env (runQueries env (freshState m) before).2 q).1 =
      (runQuery env (freshState m) q).1 := by
  have h := runQueries_coherent before (coherent_fresh env m)
  rw [runQuery_fresh h q, (runQueries_same env before (freshState m)).fresh]
  rfl

/-- **C09** (order).  Permuting a sequence of queries permutes the answers: each query keeps its
answer. -/
theorem C09_order (env : Env f R) (m : Factors f R) (qs qs' : List (Query f R)) (h : qs.Perm qs') :
    (qs.zip (runQueries env (freshState m) qs).1).Perm
      (qs'.zip (runQueries env (freshState m) qs').1) := by
  have key : ∀ l : List (Query f R), l.zip (runQueries env (freshState m) l).1 =
      l.map fun q => (q, (runQuery env (freshState m) q).1) := by
    intro l
    rw [runQueries_fresh l (coherent_fresh env m)]
    induction l with
    | nil => rfl
    | cons q l ih => rw [List.map_cons, List.zip_cons_cons, ih]; rfl
  rw [key, key]
  exact h.map _

/-! ## Approximate models -/

theorem delegate_same (env : Env f R) (st : MFState f R) (q : Query f R) :
    SameFactors st (delegate env st q).2 := by
  have h := runQuery_same env st q
  unfold delegate
  rcases hr : runQuery env st q with ⟨r, st'⟩
  rw [hr] at h
  match r with
  | .ok (.answer a) => exact h
  | .ok (.vectors a) => exact h
  | .ok (.explanation a) => exact h
  | .error e => exact h

theorem delegateSimilar_same (env : Env f R) (st : MFState f R) (ids : Ids) (N : Nat) (rc : Bool)
    (rows : Option (SpRows R)) (fi : Option PyFilter) (items : Option (List Int)) :
    SameFactors st (delegateSimilar env st ids N rc rows fi items).2 := by
  unfold delegateSimilar
  split
  · cases rows with
    | none => exact SameFactors.refl st
    | some rows => exact delegate_same _ _ _
  · exact delegate_same _ _ _

theorem annItemFactors_same (env : Env f R) (st : MFState f R) (ids : Ids) (rc : Bool)
    (rows : Option (SpRows R)) : SameFactors st (annItemFactors env st ids rc rows).2 := by
  unfold annItemFactors
  split
  · cases rows with
    | none => exact SameFactors.refl st
    | some rows => exact recalculateItem_same _ _ _ _
  · exact SameFactors.refl st

theorem batchCall_same (lowest : R) (N : Nat)
    (func : MFState f R → Nat → Option (SpRows R) → Except Err (List (Int × R)) × MFState f R)
    (hf : ∀ st u rows, SameFactors st (func st u rows).2) (rows : Option (SpRows R)) :
    ∀ (ids : List Nat) (i : Nat) (st : MFState f R),
      SameFactors st (batchCall lowest N func rows i ids st).2
  | [], _, st => SameFactors.refl st
  | id :: ids, i, st => by
    unfold batchCall
    split
    · exact SameFactors.refl st
    · rename_i a _
      have h1 := hf st id a
      rcases hr : func st id a with ⟨r, st'⟩
      rw [hr] at h1
      cases r with
      | error e => exact h1
      | ok out =>
        simp only
        have h2 := batchCall_same lowest N func hf rows ids (i + 1) st'
        rcases hq : batchCall lowest N func rows (i + 1) ids st' with ⟨r, st''⟩
        rw [hq] at h2
        cases r <;> exact h1.trans h2

/-- **C09** (Annoy and NMSLib, `recommend`): the wrapped model's factors are unchanged. -/
theorem C09_ann_recommend (env : Env f R) (search : Vec (f + 1) R → Nat → List (Int × R))
    (norm : Vec (f + 1) R → R) (maxNorm : R) (score : R → R → R) (approximate : Bool)
    (st : MFState f R) (ids : Ids) (ui : Option (SpRows R)) (N : Nat) (fl : Bool)
    (fi : Option PyFilter) (rc : Bool) (items : Option (List Int)) :
    let st' := (annRecommend env search norm maxNorm score approximate st ids ui N fl fi rc items).2
    st'.user = st.user ∧ st'.item = st.item := by
  unfold annRecommend
  split_ifs
  · exact SameFactors.refl st
  · exact SameFactors.refl st
  · exact delegate_same _ _ _
  · cases ids with
    | one u => exact SameFactors.refl st
    | many us => exact batchCall_same _ _ _ (fun st _ a => by cases a <;> exact SameFactors.refl st) _ _ _ _

theorem annoySimilarOne_same (env : Env f R) (search : Vec f R → Nat → List (Int × R))
    (st : MFState f R) (i N : Nat) (rc : Bool) (rows : Option (SpRows R)) (fi : Option PyFilter) :
    SameFactors st (annoySimilarOne env search st i N rc rows fi).2 := by
  have h := annItemFactors_same env st (.one i) rc rows
  unfold annoySimilarOne
  rcases hr : annItemFactors env st (.one i) rc rows with ⟨r, st'⟩
  rw [hr] at h
  match r with
  | .error e => exact h
  | .ok [] => exact h
  | .ok (_ :: _) => exact h

/-- **C09** (Annoy, `similar_items`). -/
theorem C09_annoy_similar (env : Env f R) (search : Vec f R → Nat → List (Int × R))
    (approximate : Bool) (st : MFState f R) (ids : Ids) (N : Nat) (rc : Bool)
    (rows : Option (SpRows R)) (fi : Option PyFilter) (items : Option (List Int)) :
    let st' := (annoySimilar env search approximate st ids N rc rows fi items).2
    st'.user = st.user ∧ st'.item = st.item := by
  unfold annoySimilar
  split_ifs
  · exact SameFactors.refl st
  · exact delegateSimilar_same _ _ _ _ _ _ _ _
  · cases ids with
    | one i => exact annoySimilarOne_same _ _ _ _ _ _ _ _
    | many is =>
      exact batchCall_same _ _ _ (fun st _ _ => annoySimilarOne_same _ _ _ _ _ _ _ _) _ _ _ _

/-- **C09** (NMSLib, `similar_items`). -/
theorem C09_nmslib_similar (env : Env f R) (search : Vec f R → Nat → List (Int × R))
    (approximate : Bool) (st : MFState f R) (ids : Ids) (N : Nat) (rc : Bool)
    (rows : Option (SpRows R)) (fi : Option PyFilter) (items : Option (List Int)) :
    let st' := (nmslibSimilar env search approximate st ids N rc rows fi items).2
    st'.user = st.user ∧ st'.item = st.item := by
  unfold nmslibSimilar
  split_ifs
  · exact delegateSimilar_same _ _ _ _ _ _ _ _
  · exact SameFactors.refl st
  · have h := annItemFactors_same env st ids rc rows
    rcases hr : annItemFactors env st ids rc rows with ⟨r, st'⟩
    rw [hr] at h
    cases r with
    | error e => exact h
    | ok factors =>
      cases ids with
      | one i => cases factors <;> exact h
      | many is => exact h

theorem faissRecommendDirect_same (env : Env f R) (search : Vec f R → Nat → List (Int × R))
    (useGpu : Bool) (st : MFState f R) (ids : Ids) (ui : Option (SpRows R)) (N : Nat) (fl : Bool)
    (fi : Option PyFilter) (rc : Bool) :
    SameFactors st (faissRecommendDirect env search useGpu st ids ui N fl fi rc).2 := by
  unfold faissRecommendDirect
  split_ifs
  · exact SameFactors.refl st
  · split
    · exact SameFactors.refl st
    · split_ifs
      · exact delegate_same _ _ _
      · cases ids with
        | one u => rename_i users _ _ _ _; cases users <;> exact SameFactors.refl st
        | many us => exact SameFactors.refl st

theorem faissRecommendOne_same (env : Env f R) (search : Vec f R → Nat → List (Int × R))
    (approximate useGpu : Bool) (N : Nat) (fl : Bool) (fi : Option PyFilter) (rc : Bool)
    (st : MFState f R) (ids : Ids) (ui : Option (SpRows R)) : SameFactors st
      (faissRecommendOne env search approximate useGpu N fl fi rc st ids ui).2 := by
  unfold faissRecommendOne
  split_ifs
  · exact SameFactors.refl st
  · exact faissRecommendDirect_same _ _ _ _ _ _ _ _ _ _

/-- **C09** (Faiss, `recommend`). -/
theorem C09_faiss_recommend (env : Env f R) (search : Vec f R → Nat → List (Int × R))
    (approximate useGpu : Bool) (st : MFState f R) (ids : Ids) (ui : Option (SpRows R)) (N : Nat)
    (fl : Bool) (fi : Option PyFilter) (rc : Bool) (items : Option (List Int)) :
    let st' := (faissRecommend env search approximate useGpu st ids ui N fl fi rc items).2
    st'.user = st.user ∧ st'.item = st.item := by
  unfold faissRecommend
  by_cases h1 : ((fl || rc) && ui.isNone) = true
  · rw [if_pos h1]; exact SameFactors.refl st
  by_cases h2 : (items.isSome && approximate) = true
  · rw [if_neg h1, if_pos h2]; exact SameFactors.refl st
  · rw [if_neg h1, if_neg h2]
    cases ids with
    | one u => exact faissRecommendOne_same _ _ _ _ _ _ _ _ _ _ _
    | many us =>
      simp only
      split_ifs
      · refine batchCall_same _ _ _ (fun st u rows => ?_) _ _ _ _
        have h := faissRecommendOne_same env search approximate useGpu N fl fi rc st (.one u) rows
        rcases hr : faissRecommendOne env search approximate useGpu N fl fi rc st (.one u) rows
          with ⟨r, st'⟩
        rw [hr] at h
        match r with
        | .ok (.one row) => exact h
        | .ok (.many _) => exact h
        | .error e => exact h
      · exact faissRecommendOne_same _ _ _ _ _ _ _ _ _ _ _

/-- **C09** (Faiss, `similar_items`): the factors are unchanged when an array of ids is asked for, when
the factor is recalculated, or when the call is passed on to the wrapped model. -/
theorem C09_faiss_similar_partial (env : Env f R) (search : Vec f R → Nat → List (Int × R))
    (approximate useGpu : Bool) (st : MFState f R) (ids : Ids) (N : Nat) (rc : Bool)
    (rows : Option (SpRows R)) (fi : Option PyFilter) (items : Option (List Int))
    (h : approximate = false ∨ rc = true ∨ ∃ is, ids = .many is) :
    let st' := (faissSimilar env search approximate useGpu st ids N rc rows fi items).2
    st'.user = st.user ∧ st'.item = st.item := by
  unfold faissSimilar
  by_cases h1 : (items.isSome && approximate) = true
  · rw [if_pos h1]; exact SameFactors.refl st
  by_cases h2 : (!approximate || (useGpu && decide (1024 ≤ annCount N fi))) = true
  · rw [if_neg h1, if_pos h2]; exact delegateSimilar_same _ _ _ _ _ _ _ _
  · rw [if_neg h1, if_neg h2]
    have hs := annItemFactors_same env st ids rc rows
    rcases hr : annItemFactors env st ids rc rows with ⟨r, st'⟩
    rw [hr] at hs
    cases r with
    | error e => exact hs
    | ok factors =>
      cases ids with
      | many is => exact hs
      | one i =>
        cases factors with
        | nil => exact hs
        | cons q qs =>
          rcases h with rfl | rfl | ⟨is, h⟩
          · simp at h2
          · exact hs
          · cases h

/-- **C09 is violated** by `similar_items` of the Faiss model with one item id: it normalises the row of
`item_factors` it looked up in place.  Here item 0 has factor 2; after `similar_items(0)` its factor is
1, so that recommend afterwards prefers item 1 to item 0. -/
theorem C09_faiss_similar_violated (search : Vec 1 Rat → Nat → List (Int × Rat)) :
    let st := freshState (f := 1) (R := Rat) ⟨[![1]], [![2], ![3 / 2]]⟩
    let st' := (faissSimilar c10Env search true false st (.one 0) 1 false none none none).2
    st'.item.map (fun v => v 0) = [1, 3 / 2] ∧
      listOf (runQuery c10Env st (.recommend (.one 0) none 1 false none false none)).1 =
        some [(0, 2)] ∧
      listOf (runQuery c10Env st' (.recommend (.one 0) none 1 false none false none)).1 =
        some [(1, 3 / 2)] := by
  have : (faissSimilar c10Env search true false
      (freshState (f := 1) (R := Rat) ⟨[![1]], [![2], ![3 / 2]]⟩) (.one 0) 1 false none none none).2
      = { (freshState (f := 1) (R := Rat) ⟨[![1]], [![2], ![3 / 2]]⟩) with
          item := [normalizeVec c10Env.norm ![2], ![3 / 2]] } := rfl
  simp only [this]
  decide +kernel

/-- The general form of the violation: with one id the stored factor is replaced by the normalised one. -/
theorem C09_faiss_similar_writes (env : Env f R) (search : Vec f R → Nat → List (Int × R))
    (st : MFState f R) (i N : Nat) (fi : Option PyFilter) (v : Vec f R) (hv : st.item[i]? = some v) :
    (faissSimilar env search true false st (.one i) N false none fi none).2.item =
      st.item.set i (fun j => v j / env.norm v) := by
  unfold faissSimilar
  have : annItemFactors env st (.one i) false none = (.ok [v], st) := by
    unfold annItemFactors
    rw [if_neg (by simp), show (Ids.one i).toList = [i] from rfl, gather_one hv]
  simp [this]
  rfl

/-- Non-trivial use of the theorems: two queries which fill different caches. -/
example : (runQuery c10Env (runQueries c10Env (freshState ⟨[![1], ![2]], [![2], ![1]]⟩)
      [.recalculateUser (.one 0) [[(0, 1)]], c10Query]).2 c10Query).1 =
    (runQuery c10Env (freshState ⟨[![1], ![2]], [![2], ![1]]⟩) c10Query).1 := C09_answers _ _ _ _

end Implicit
