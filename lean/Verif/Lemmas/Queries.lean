import Verif.Lemmas.State

set_option linter.unusedSectionVars false

namespace Implicit

variable {R : Type} [LinearOrder R] [Field R] {f : Nat}

/-- The model as it was right after its factors were learned: no caches. -/
def MFState.fresh (st : MFState f R) : MFState f R := freshState ⟨st.user, st.item⟩

theorem fresh_coherent (env : Env f R) (st : MFState f R) : Coherent env st.fresh :=
  coherent_fresh env _

theorem recalculateUser_same (env : Env f R) (st : MFState f R) (ids : Ids) (rows : SpRows R) :
    SameFactors st (recalculateUser env st ids rows).2 := by
  unfold recalculateUser
  split
  · exact SameFactors.refl st
  · exact getYtY_same st

theorem recalculateItem_same (env : Env f R) (st : MFState f R) (ids : Ids) (rows : SpRows R) :
    SameFactors st (recalculateItem env st ids rows).2 := getXtX_same st

theorem recalculateUser_coherent {env : Env f R} {st : MFState f R} (h : Coherent env st) (ids : Ids)
    (rows : SpRows R) : Coherent env (recalculateUser env st ids rows).2 := by
  unfold recalculateUser
  split
  · exact h
  · exact getYtY_coherent h

theorem recalculateItem_coherent {env : Env f R} {st : MFState f R} (h : Coherent env st) (ids : Ids)
    (rows : SpRows R) : Coherent env (recalculateItem env st ids rows).2 := getXtX_coherent h

theorem recalculateUser_fresh {env : Env f R} {st : MFState f R} (h : Coherent env st) (ids : Ids)
    (rows : SpRows R) :
    (recalculateUser env st ids rows).1 = (recalculateUser env st.fresh ids rows).1 := by
  unfold recalculateUser
  split
  · rfl
  · show leastSquaresNative env.S (getYtY st).1 _ _ (getYtY st).2.item _ = _
    rw [getYtY_fst h, (getYtY_same st).2]
    rfl

theorem recalculateItem_fresh {env : Env f R} {st : MFState f R} (h : Coherent env st) (ids : Ids)
    (rows : SpRows R) :
    (recalculateItem env st ids rows).1 = (recalculateItem env st.fresh ids rows).1 := by
  unfold recalculateItem
  show leastSquaresNative env.S (getXtX st).1 _ _ (getXtX st).2.user _ = _
  rw [getXtX_fst h, (getXtX_same st).1]
  rfl

theorem explain_state (env : Env f R) (st : MFState f R) (userid : Nat) (rows : SpRows R)
    (itemid : Nat) (weights : Option (Mat f R)) (N : Nat) :
    (explain env st userid rows itemid weights N).2 = st ∨
      (explain env st userid rows itemid weights N).2 = (getYtY st).2 := by
  unfold explain
  cases (applyAlpha env.p.alpha rows)[userid]? with
  | none =>
    cases weights with
    | none => exact .inr rfl
    | some A => exact .inl rfl
  | some row =>
    cases weights with
    | none => exact .inr rfl
    | some A => exact .inl rfl

theorem explain_fresh {env : Env f R} {st : MFState f R} (h : Coherent env st) (userid : Nat)
    (rows : SpRows R) (itemid : Nat) (weights : Option (Mat f R)) (N : Nat) :
    (explain env st userid rows itemid weights N).1 =
      (explain env st.fresh userid rows itemid weights N).1 := by
  unfold explain
  cases (applyAlpha env.p.alpha rows)[userid]? with
  | none => rfl
  | some row =>
    cases weights with
    | some A => rfl
    | none =>
      have h1 := getYtY_fst h
      have h2 := (getYtY_same st).2
      simp only
      rw [h1, h2]
      rfl

/-- No query changes the factors. -/
theorem runQuery_same (env : Env f R) (st : MFState f R) (q : Query f R) :
    SameFactors st (runQuery env st q).2 := by
  cases q with
  | recommend ids userItems N fl fi recalculate items =>
    unfold runQuery
    simp only
    split
    · exact getYtY_same st
    · exact SameFactors.refl st
  | similarItems ids N fi items =>
    unfold runQuery
    simp only
    split
    · exact getItemNorms_same env st
    · exact SameFactors.refl st
  | similarItemsRecalc ids rows N fi items =>
    unfold runQuery
    have h := recalculateItem_same env st ids rows
    rcases hr : Implicit.recalculateItem env st ids rows with ⟨r, st'⟩
    rw [hr] at h
    simp only [hr]
    cases r with
    | error e => exact h
    | ok xs => exact h.trans (getItemNorms_same env st')
  | similarUsers ids N fi items => exact getUserNorms_same env st
  | recalculateUser ids rows => exact recalculateUser_same env st ids rows
  | recalculateItem ids rows => exact recalculateItem_same env st ids rows
  | explain userid rows itemid weights N =>
    show SameFactors st (Implicit.explain env st userid rows itemid weights N).2
    rcases explain_state env st userid rows itemid weights N with h | h
    · rw [h]; exact SameFactors.refl st
    · rw [h]; exact getYtY_same st

theorem runQuery_coherent {env : Env f R} {st : MFState f R} (h : Coherent env st) (q : Query f R) :
    Coherent env (runQuery env st q).2 := by
  cases q with
  | recommend ids userItems N fl fi recalculate items =>
    unfold runQuery
    simp only
    split
    · exact getYtY_coherent h
    · exact h
  | similarItems ids N fi items =>
    unfold runQuery
    simp only
    split
    · exact getItemNorms_coherent h
    · exact h
  | similarItemsRecalc ids rows N fi items =>
    unfold runQuery
    have h := recalculateItem_coherent h ids rows
    rcases hr : Implicit.recalculateItem env st ids rows with ⟨r, st'⟩
    rw [hr] at h
    simp only [hr]
    cases r with
    | error e => exact h
    | ok xs => exact getItemNorms_coherent h
  | similarUsers ids N fi items => exact getUserNorms_coherent h
  | recalculateUser ids rows => exact recalculateUser_coherent h ids rows
  | recalculateItem ids rows => exact recalculateItem_coherent h ids rows
  | explain userid rows itemid weights N =>
    show Coherent env (Implicit.explain env st userid rows itemid weights N).2
    rcases explain_state env st userid rows itemid weights N with h' | h'
    · rw [h']; exact h
    · rw [h']; exact getYtY_coherent h

/-- With coherent caches a query answers as on the model without caches. -/
theorem runQuery_fresh {env : Env f R} {st : MFState f R} (h : Coherent env st) (q : Query f R) :
    (runQuery env st q).1 = (runQuery env st.fresh q).1 := by
  cases q with
  | recommend ids userItems N fl fi recalculate items =>
    unfold runQuery
    simp only
    have : (fun rows => (Implicit.recalculateUser env st ids rows).1) =
        fun rows => (Implicit.recalculateUser env st.fresh ids rows).1 :=
      funext fun rows => recalculateUser_fresh h ids rows
    rw [this]
    rfl
  | similarItems ids N fi items =>
    unfold runQuery
    simp only
    have e : st.fresh.item = st.item := rfl
    rw [e]
    split
    · show (similar env.H env.neginf (getItemNorms env st).2.item (getItemNorms env st).1 ids N fi
        items).map _ = _
      rw [getItemNorms_fst h, (getItemNorms_same env st).2]
      rfl
    · rfl
  | similarItemsRecalc ids rows N fi items =>
    unfold runQuery
    have hc := recalculateItem_coherent h ids rows
    have hs := recalculateItem_same env st ids rows
    have hf := recalculateItem_fresh h ids rows
    have hs' := recalculateItem_same env st.fresh ids rows
    have hc' := recalculateItem_coherent (fresh_coherent env st) ids rows
    rcases hr : Implicit.recalculateItem env st ids rows with ⟨r, st'⟩
    rcases hr' : Implicit.recalculateItem env st.fresh ids rows with ⟨r', st''⟩
    rw [hr] at hc hs hf
    rw [hr'] at hc' hs' hf
    simp only at hf
    subst hf
    simp only [hr, hr']
    cases r with
    | error e => rfl
    | ok xs =>
      show (similarRecalc env.H env.neginf env.norm env.eps (getItemNorms env st').2.item
          (getItemNorms env st').1 (fun _ => .ok xs) rows ids N fi items).map _ =
        (similarRecalc env.H env.neginf env.norm env.eps (getItemNorms env st'').2.item
          (getItemNorms env st'').1 (fun _ => .ok xs) rows ids N fi items).map _
      rw [getItemNorms_fst hc, (getItemNorms_same env st').2, getItemNorms_fst hc',
        (getItemNorms_same env st'').2, hs.2, hs'.2]
      rfl
  | similarUsers ids N fi items =>
    show (similar env.H env.neginf (getUserNorms env st).2.user (getUserNorms env st).1 ids N fi
      items).map _ = _
    rw [getUserNorms_fst h, (getUserNorms_same env st).1]
    rfl
  | recalculateUser ids rows =>
    show (Implicit.recalculateUser env st ids rows).1.map _ = _
    rw [recalculateUser_fresh h]
    rfl
  | recalculateItem ids rows =>
    show (Implicit.recalculateItem env st ids rows).1.map _ = _
    rw [recalculateItem_fresh h]
    rfl
  | explain userid rows itemid weights N =>
    show (Implicit.explain env st userid rows itemid weights N).1.map _ = _
    rw [explain_fresh h]
    rfl

theorem runQueries_same (env : Env f R) : ∀ (qs : List (Query f R)) (st : MFState f R),
    SameFactors st (runQueries env st qs).2
  | [], st => SameFactors.refl st
  | q :: qs, st => (runQuery_same env st q).trans (runQueries_same env qs _)

theorem runQueries_coherent {env : Env f R} : ∀ (qs : List (Query f R)) {st : MFState f R},
    Coherent env st → Coherent env (runQueries env st qs).2
  | [], _, h => h
  | q :: qs, _, h => runQueries_coherent qs (runQuery_coherent h q)

theorem SameFactors.fresh {st st' : MFState f R} (h : SameFactors st st') : st'.fresh = st.fresh := by
  unfold MFState.fresh
  rw [h.1, h.2]

theorem runQueries_fresh {env : Env f R} : ∀ (qs : List (Query f R)) {st : MFState f R},
    Coherent env st → (runQueries env st qs).1 = qs.map fun q => (runQuery env st.fresh q).1
  | [], _, _ => rfl
  | q :: qs, st, h => by
    unfold runQueries
    simp only [List.map_cons]
    rw [runQuery_fresh h q, runQueries_fresh qs (runQuery_coherent h q),
      (runQuery_same env st q).fresh]

end Implicit
