import Verif.Lemmas.FailedCalls
import Verif.Props.C10
import Verif.Props.C66

/-!
# C74 — a call that raises leaves the model as it was

A caller that catches exceptions can forget the calls that raised: every other call has the outcome it has in a history
without them.  This holds for the query methods and for `partial_fit_*` of the CPU models that drop their caches in `fit`
(`C74_history_partial`).  It fails for `partial_fit_*` with ids that mix a new row with an index out of bounds from the
end, for a raising query before a `fit` that keeps its caches (logistic matrix factorisation), and for `fit` itself.
-/

set_option linter.unusedSectionVars false

namespace Implicit

variable {R : Type} [LinearOrder R] [Field R] {f : Nat}

namespace Spec

/-- The calls a caller may leave out of a history: queries, and updates that raise. -/
def Forgettable {α : Type} : MFCall f R → Except Err α → Prop
  | .query _, _ => True
  | .partialFitUsers _ _, o => ∃ e, o = .error e
  | .partialFitItems _ _, o => ∃ e, o = .error e
  | .fit _ _ _ _ _, _ => False

/-- The calls for which the property holds. -/
def TameCall : MFCall f R → Prop
  | .query _ => True
  | .partialFitUsers ids _ => OneSided ids
  | .partialFitItems ids _ => OneSided ids
  | .fit invalidate _ _ _ _ => invalidate = true

/-- The entries of a list at the places marked `true`. -/
def picked {α : Type} (l : List α) (keep : List Bool) : List α :=
  ((l.zip keep).filter (·.2)).map (·.1)

end Spec

theorem runCall_warm {env : Env f R} {a b : MFState f R} (h : a.warm env = b.warm env) {c : MFCall f R}
    (hc : Spec.TameCall c) :
    (runCall env a c).1 = (runCall env b c).1 ∧
      (runCall env a c).2.warm env = (runCall env b c).2.warm env := by
  cases c with
  | query q =>
    unfold runCall
    simp only
    rw [runQuery_warm_fst env a, runQuery_warm_fst env b, h, runQuery_warm_snd, runQuery_warm_snd, h]
    exact ⟨rfl, rfl⟩
  | partialFitUsers ids rows =>
    unfold runCall
    simp only
    obtain ⟨a1, a2, -⟩ := partialFitUsersZ_warm env a hc rows
    obtain ⟨b1, b2, -⟩ := partialFitUsersZ_warm env b hc rows
    rw [a1, a2, b1, b2, h]
    exact ⟨rfl, rfl⟩
  | partialFitItems ids rows =>
    unfold runCall
    simp only
    obtain ⟨a1, a2, -⟩ := partialFitItemsZ_warm env a hc rows
    obtain ⟨b1, b2, -⟩ := partialFitItemsZ_warm env b hc rows
    rw [a1, a2, b1, b2, h]
    exact ⟨rfl, rfl⟩
  | fit invalidate train callback torn epochs =>
    obtain ⟨hu, hi⟩ := warm_factors h
    have hinv : invalidate = true := hc
    subst hinv
    have : fitModel env true train callback torn epochs a = fitModel env true train callback torn epochs b := by
      unfold fitModel
      simp only [if_true, hu, hi]
    unfold runCall
    simp only
    rw [this]
    exact ⟨rfl, rfl⟩

theorem runCall_forgettable {env : Env f R} {st : MFState f R} {c : MFCall f R} (hc : Spec.TameCall c)
    (hf : Spec.Forgettable c (runCall env st c).1) : (runCall env st c).2.warm env = st.warm env := by
  have herr : ∀ {α β : Type} {g : α → β} {o : Except Err α} {e : Err}, o.map g = .error e → o = .error e := by
    intro α β g o e h
    cases o with
    | error e' => cases h; rfl
    | ok v => cases h
  cases c with
  | query q => exact runQuery_warm_snd env st q
  | partialFitUsers ids rows =>
    obtain ⟨e, he⟩ := hf
    exact (partialFitUsersZ_warm env st hc rows).2.2 e (herr he)
  | partialFitItems ids rows =>
    obtain ⟨e, he⟩ := hf
    exact (partialFitItemsZ_warm env st hc rows).2.2 e (herr he)
  | fit invalidate train callback torn epochs => exact hf.elim

theorem picked_cons {α : Type} (x : α) (l : List α) (k : Bool) (ks : List Bool) :
    Spec.picked (x :: l) (k :: ks) = if k then x :: Spec.picked l ks else Spec.picked l ks := by
  cases k <;> simp [Spec.picked]

theorem runCalls_picked {env : Env f R} : ∀ (calls : List (MFCall f R)) (keep : List Bool) (a b : MFState f R),
    a.warm env = b.warm env → keep.length = calls.length → (∀ c ∈ calls, Spec.TameCall c) →
    (∀ (k : Nat) c o, calls[k]? = some c → (runCalls env a calls).1[k]? = some o → keep[k]? = some false →
      Spec.Forgettable c o) →
    (runCalls env b (Spec.picked calls keep)).1 = Spec.picked (runCalls env a calls).1 keep ∧
      (runCalls env b (Spec.picked calls keep)).2.warm env = (runCalls env a calls).2.warm env
  | [], keep, a, b, h, hl, _, _ => by
    have : keep = [] := List.length_eq_zero_iff.mp hl
    subst this
    exact ⟨rfl, h.symm⟩
  | c :: calls, [], _, _, _, hl, _, _ => by simp at hl
  | c :: calls, k :: keep, a, b, h, hl, ht, hf => by
    have hl' : keep.length = calls.length := by simpa using hl
    have ht' : ∀ c ∈ calls, Spec.TameCall c := fun d hd => ht d (List.mem_cons_of_mem _ hd)
    have hf' : ∀ (j : Nat) d o, calls[j]? = some d → (runCalls env (runCall env a c).2 calls).1[j]? = some o →
        keep[j]? = some false → Spec.Forgettable d o := by
      intro j d o h1 h2 h3
      exact hf (j + 1) d o (by simpa using h1) (by simpa [runCalls] using h2) (by simpa using h3)
    cases k with
    | true =>
      obtain ⟨e1, e2⟩ := runCall_warm h (ht c (by simp))
      have ih := runCalls_picked calls keep (runCall env a c).2 (runCall env b c).2 e2 hl' ht' hf'
      rw [picked_cons, if_pos rfl]
      unfold runCalls
      simp only
      rw [picked_cons, if_pos rfl, ih.1, ih.2, e1]
      exact ⟨rfl, rfl⟩
    | false =>
      have hforget := hf 0 c (runCall env a c).1 rfl rfl rfl
      have e2 : (runCall env a c).2.warm env = b.warm env := (runCall_forgettable (ht c (by simp)) hforget).trans h
      have ih := runCalls_picked calls keep (runCall env a c).2 b e2 hl' ht' hf'
      rw [picked_cons, if_neg (by simp)]
      have hrun : runCalls env a (c :: calls) = ((runCall env a c).1 :: (runCalls env (runCall env a c).2 calls).1,
        (runCalls env (runCall env a c).2 calls).2) := rfl
      rw [hrun]
      simp only
      rw [picked_cons, if_neg (by simp)]
      exact ih

/-- **C74** (histories).  Leave out of a history any queries, and any `partial_fit_*` calls that raise: every remaining call,
whether it returns or raises, has the outcome it had, the factors at the end are the same, and every later query answers the
same.  The model may start in any state whatever, with any caches. -/
theorem C74_history_partial (env : Env f R) (st : MFState f R) (calls : List (MFCall f R)) (keep : List Bool)
    (hl : keep.length = calls.length) (ht : ∀ c ∈ calls, Spec.TameCall c)
    (hf : ∀ (k : Nat) c o, calls[k]? = some c → (runCalls env st calls).1[k]? = some o → keep[k]? = some false →
      Spec.Forgettable c o) :
    let all := runCalls env st calls
    let rest := runCalls env st (Spec.picked calls keep)
    rest.1 = Spec.picked all.1 keep ∧ rest.2.user = all.2.user ∧ rest.2.item = all.2.item ∧
      ∀ q, (runQuery env rest.2 q).1 = (runQuery env all.2 q).1 := by
  intro all rest
  obtain ⟨h1, h2⟩ := runCalls_picked calls keep st st rfl hl ht hf
  exact ⟨h1, (warm_factors h2).1, (warm_factors h2).2,
    fun q => by rw [runQuery_warm_fst, h2, ← runQuery_warm_fst]⟩

/-- **C74** (one call).  A query, or a `partial_fit_*` call that raises, changes no factor and no later answer. -/
theorem C74_call_partial (env : Env f R) (st : MFState f R) (c : MFCall f R) (ht : Spec.TameCall c)
    (hf : Spec.Forgettable c (runCall env st c).1) (q : Query f R) :
    (runCall env st c).2.user = st.user ∧ (runCall env st c).2.item = st.item ∧
      (runQuery env (runCall env st c).2 q).1 = (runQuery env st q).1 := by
  have h := runCall_forgettable ht hf
  exact ⟨(warm_factors h).1, (warm_factors h).2, by rw [runQuery_warm_fst, h, ← runQuery_warm_fst]⟩

/-! ## `partial_fit_*` with arbitrary ids -/

/-- Ids that count from the start: the model with natural numbers. -/
theorem partialFitUsersZ_nat (env : Env f R) (st : MFState f R) (ids : List Nat) (rows : SpRows R) :
    partialFitUsersZ env st (ids.map (fun i : Nat => (i : Int))) rows = partialFitUsers env st ids rows := by
  have hmax : pyMaxZ (ids.map (fun i : Nat => (i : Int))) = (pyMax ids).map (fun i : Nat => (i : Int)) := by
    cases ids with
    | nil => rfl
    | cons i is =>
      have : ∀ (is : List Nat) (i : Nat), (is.map (fun i : Nat => (i : Int))).foldl max (i : Int) =
          ((is.foldl max i : Nat) : Int) := by
        intro is
        induction is with
        | nil => intro i; rfl
        | cons j js ih =>
          intro i
          simp only [List.map_cons, List.foldl_cons]
          rw [← ih, Nat.cast_max]
      simp only [List.map_cons, pyMaxZ, pyMax, Except.map]
      rw [this]
  have hgrow : ∀ (m : Nat) (l : List (Vec f R)), growToZ (m : Int) l = growTo m l := by
    intro m l
    unfold growToZ growTo
    by_cases h : l.length ≤ m
    · rw [if_pos (by omega), if_pos h]
      congr 2
      omega
    · rw [if_neg (by omega), if_neg h]
  have hrows : ∀ (n : Nat) (is : List Nat), (∀ i ∈ is, i < n) →
      (is.map (fun i : Nat => (i : Int))).mapM (rowOf n) = some is := by
    intro n is
    induction is with
    | nil => intro _; rfl
    | cons i is ih =>
      intro h
      have hi : rowOf n (i : Int) = some i := by
        have := h i (by simp)
        unfold rowOf
        rw [if_pos (by omega), if_pos (by omega)]
        rfl
      rw [List.map_cons, List.mapM_cons, hi, ih fun j hj => h j (by simp [hj])]
      rfl
  have htn : (ids.map (fun i : Nat => (i : Int))).map Int.toNat = ids := by
    rw [List.map_map]
    exact List.map_id ids
  unfold partialFitUsersZ partialFitUsers
  rw [List.length_map, htn, hmax]
  split
  · rfl
  · rcases recalculateUser env st (.many ids) rows with ⟨r, s⟩
    cases r with
    | error e => rfl
    | ok xs =>
      cases hm : pyMax ids with
      | error e => rfl
      | ok m =>
        simp only [Except.map, hgrow]
        rw [hrows]
        intro i hi
        have h1 := (pyMaxZ_ok (ids := ids.map (fun i : Nat => (i : Int))) (m := (m : Int)) (by rw [hmax, hm]; rfl)).2 i
          (List.mem_map.mpr ⟨i, hi, rfl⟩)
        unfold growTo
        split
        · rw [List.length_append, List.length_replicate]; omega
        · omega

/-- **C74** (what a raising `partial_fit_users` can do).  The item factors stay.  The user factors stay too, unless the exception
is the `IndexError` for an id that is out of bounds even after the table was extended for a larger id: then the table keeps
the rows of zeros it was extended by. -/
theorem C74_partial_fit_users (env : Env f R) (st : MFState f R) (ids : List Int) (rows : SpRows R) (e : Err)
    (h : (partialFitUsersZ env st ids rows).1 = .error e) :
    let st' := (partialFitUsersZ env st ids rows).2
    st'.item = st.item ∧
      (st'.user = st.user ∨
        e = .indexError ∧ ∃ m ∈ ids, ∃ i ∈ ids, (st.user.length : Int) ≤ m ∧ (∀ j ∈ ids, j ≤ m) ∧ i < -(m + 1) ∧
          st'.user = st.user ++ List.replicate (m + 1 - st.user.length).toNat (fun _ => 0)) := by
  intro st'
  have hst' : st' = (partialFitUsersZ env st ids rows).2 := rfl
  clear_value st'
  unfold partialFitUsersZ at h hst'
  split at h
  · rename_i hl
    rw [if_pos hl] at hst'
    subst hst'
    exact ⟨rfl, .inl rfl⟩
  · rename_i hl
    rw [if_neg hl] at hst'
    have hs := recalculateUser_same env st (.many (ids.map Int.toNat)) rows
    rcases hr : recalculateUser env st (.many (ids.map Int.toNat)) rows with ⟨r, s⟩
    rw [hr] at h hst' hs
    cases r with
    | error e' => subst hst'; exact ⟨hs.2, .inl hs.1⟩
    | ok xs =>
      simp only at h hst'
      cases hm : pyMaxZ ids with
      | error e' => rw [hm] at hst'; subst hst'; exact ⟨hs.2, .inl hs.1⟩
      | ok m =>
        rw [hm] at h hst'
        simp only at h hst'
        cases hmap : ids.mapM (rowOf (growToZ m s.user).length) with
        | some rs => rw [hmap] at h; cases h
        | none =>
          rw [hmap] at h hst'
          simp only at h hst'
          have he : e = .indexError := by injection h with h; exact h.symm
          subst hst'
          refine ⟨hs.2, ?_⟩
          obtain ⟨hmem, hmax⟩ := pyMaxZ_ok hm
          obtain ⟨i, hi, hrow⟩ := mapM_rowOf_none.mp hmap
          rw [rowOf_none, growToZ_length] at hrow
          have hus : s.user = st.user := hs.1
          by_cases hg : (st.user.length : Int) ≤ m
          · refine .inr ⟨he, m, hmem, i, hi, hg, hmax, ?_, ?_⟩
            · have := hmax i hi
              rw [hus] at hrow
              omega
            · show growToZ m s.user = _
              unfold growToZ
              rw [hus, if_pos hg]
              congr 3
              omega
          · refine .inl ?_
            show growToZ m s.user = _
            unfold growToZ
            rw [hus, if_neg hg]

theorem C74_partial_fit_items (env : Env f R) (st : MFState f R) (ids : List Int) (rows : SpRows R) (e : Err)
    (h : (partialFitItemsZ env st ids rows).1 = .error e) :
    let st' := (partialFitItemsZ env st ids rows).2
    st'.user = st.user ∧
      (st'.item = st.item ∨
        e = .indexError ∧ ∃ m ∈ ids, ∃ i ∈ ids, (st.item.length : Int) ≤ m ∧ (∀ j ∈ ids, j ≤ m) ∧ i < -(m + 1) ∧
          st'.item = st.item ++ List.replicate (m + 1 - st.item.length).toNat (fun _ => 0)) := by
  rw [partialFitItemsZ_swap] at h ⊢
  exact C74_partial_fit_users env st.swap ids rows e h

theorem rowOf_some {n : Nat} {i : Int} {r : Nat} (h : rowOf n i = some r) :
    r < n ∧ (r : Int) = if 0 ≤ i then i else i + n := by
  unfold rowOf at h
  split at h
  · split at h
    · cases h; rename_i h0 _; rw [if_pos h0]; omega
    · cases h
  · split at h
    · cases h; rename_i h0 _; rw [if_neg h0]; omega
    · cases h

theorem mapM_rowOf_some {n : Nat} : ∀ {ids : List Int} {rs : List Nat}, ids.mapM (rowOf n) = some rs →
    rs.length = ids.length ∧ ∀ (k : Nat) i, ids[k]? = some i → ∃ r, rs[k]? = some r ∧ rowOf n i = some r
  | [], rs, h => by cases h; simp
  | i :: ids, rs, h => by
    rw [List.mapM_cons] at h
    cases hi : rowOf n i with
    | none => rw [hi] at h; cases h
    | some r =>
      cases hs : ids.mapM (rowOf n) with
      | none => rw [hi, hs] at h; cases h
      | some rs' =>
        rw [hi, hs] at h
        cases h
        obtain ⟨h1, h2⟩ := mapM_rowOf_some hs
        refine ⟨by simp [h1], ?_⟩
        intro k j hk
        cases k with
        | zero => simp at hk; subst hk; exact ⟨r, by simp, hi⟩
        | succ k => exact by simpa using h2 k j (by simpa using hk)

/-- **C74** (what a returning `partial_fit_users` does with integer ids).  It is the update of the rows that the ids name: ids from 0
count from the start, negative ones from the end of the table *after* it was extended for the largest id. -/
theorem C74_integer_ids_users (env : Env f R) (st : MFState f R) (ids : List Int) (rows : SpRows R)
    (h : (partialFitUsersZ env st ids rows).1 = .ok ()) :
    ∃ named : List Nat, named.length = ids.length ∧
      partialFitUsersZ env st ids rows = partialFitUsers env st named rows ∧
      ∀ (k : Nat) i, ids[k]? = some i → ∃ r, named[k]? = some r ∧
        (r : Int) = if 0 ≤ i then i else i + (partialFitUsersZ env st ids rows).2.user.length := by
  unfold partialFitUsersZ at h ⊢
  split at h
  · cases h
  · rename_i hl
    rw [if_neg hl]
    have hrec : ∀ named : List Nat, named.length = ids.length →
        recalculateUser env st (.many named) rows = recalculateUser env st (.many (ids.map Int.toNat)) rows := by
      intro named hn
      unfold recalculateUser
      simp only [Ids.count, List.length_map, hn]
    rcases hr : recalculateUser env st (.many (ids.map Int.toNat)) rows with ⟨r, s⟩
    rw [hr] at h
    cases r with
    | error e => cases h
    | ok xs =>
      simp only at h ⊢
      cases hm : pyMaxZ ids with
      | error e => rw [hm] at h; cases h
      | ok m =>
        rw [hm] at h
        simp only at h ⊢
        cases hmap : ids.mapM (rowOf (growToZ m s.user).length) with
        | none => rw [hmap] at h; cases h
        | some named =>
          obtain ⟨h1, h2⟩ := mapM_rowOf_some hmap
          obtain ⟨hmem, hmax⟩ := pyMaxZ_ok hm
          have hglen := growToZ_length m s.user
          refine ⟨named, h1, ?_, ?_⟩
          · have hne : named ≠ [] := by
              intro h0
              subst h0
              have : ids = [] := List.length_eq_zero_iff.mp (by simpa using h1.symm)
              subst this
              cases hmem
            obtain ⟨m', hm'⟩ := pyMax_ok hne
            obtain ⟨hmem', hmax'⟩ := pyMax_spec hm'
            have hgrow : growTo m' s.user = growToZ m s.user := by
              obtain ⟨k, hk⟩ := List.getElem?_of_mem hmem
              obtain ⟨r, hr1, hr2⟩ := h2 k m hk
              obtain ⟨hr3, hr4⟩ := rowOf_some hr2
              have hle := hmax' r (List.mem_of_getElem? hr1)
              obtain ⟨k', hk'⟩ := List.getElem?_of_mem hmem'
              have hk'' : k' < ids.length := by
                rw [← h1]
                exact (List.getElem?_eq_some_iff.mp hk').1
              obtain ⟨r', hr1', hr2'⟩ := h2 k' ids[k'] (List.getElem?_eq_getElem hk'')
              rw [hk'] at hr1'
              cases hr1'
              obtain ⟨hr3', -⟩ := rowOf_some hr2'
              unfold growTo growToZ at *
              by_cases hb : (s.user.length : Int) ≤ m
              · rw [if_pos (by omega : 0 ≤ m)] at hr4
                rw [if_pos hb]
                rw [if_pos hb] at hr3' hglen
                have e : m' = r := by omega
                subst e
                rw [if_pos (by omega)]
                congr 2
                omega
              · rw [if_neg hb]
                rw [if_neg hb] at hr3'
                rw [if_neg (by omega)]
            unfold partialFitUsers
            rw [if_neg (by rw [h1]; exact hl), hrec named h1, hr]
            simp only [hm', hgrow]
          · intro k i hk
            obtain ⟨r, hr1, hr2⟩ := h2 k i hk
            refine ⟨r, hr1, ?_⟩
            simp only [assignRows_length]
            exact (rowOf_some hr2).2

theorem C74_integer_ids_items (env : Env f R) (st : MFState f R) (ids : List Int) (rows : SpRows R)
    (h : (partialFitItemsZ env st ids rows).1 = .ok ()) :
    ∃ named : List Nat, named.length = ids.length ∧
      partialFitItemsZ env st ids rows = partialFitItems env st named rows ∧
      ∀ (k : Nat) i, ids[k]? = some i → ∃ r, named[k]? = some r ∧
        (r : Int) = if 0 ≤ i then i else i + (partialFitItemsZ env st ids rows).2.item.length := by
  rw [partialFitItemsZ_swap] at h ⊢
  obtain ⟨named, h1, h2, h3⟩ := C74_integer_ids_users env st.swap ids rows h
  refine ⟨named, h1, ?_, h3⟩
  rw [partialFitItems_swap, h2]

/-- `partial_fit_users([3, -1, -4], …)` on a table of two rows: four rows afterwards; -1 names the new last row, which then belongs to two
ids and keeps the later values, and -4 names the first. -/
example :
    let st : MFState 1 Rat := freshState ⟨[![1], ![2]], [![1], ![3]]⟩
    let run := partialFitUsersZ c10Env st [3, -1, -4] [[(0, 1)], [(1, 1)], [(0, 2)]]
    run.1.isOkB = true ∧ run.2.user.map (· 0) =
      (partialFitUsers c10Env st [3, 3, 0] [[(0, 1)], [(1, 1)], [(0, 2)]]).2.user.map (· 0) ∧
      run.2.user.map (· 0) ≠ [1, 2, 0, 0] ∧ run.2.user.length = 4 := by
  decide +kernel

/-! ## Where it fails -/

/-- **C74 is violated** by `partial_fit_users` with an id for a new row and an id out of bounds from the end, whatever the model,
the rows and the extent: the call raises `IndexError` and the model has new users. -/
theorem C74_grown_violated (env : Env f R) (st : MFState f R) (more : Nat) (rows : SpRows R) (xs : List (Vec f R))
    (hrows : rows.length = 2)
    (hx : (recalculateUser env st (.many [st.user.length + more, 0]) rows).1 = .ok xs) :
    let run := partialFitUsersZ env st [st.user.length + more, -(st.user.length + more + 2)] rows
    run.1 = .error .indexError ∧ run.2.user = st.user ++ List.replicate (more + 1) (fun _ => 0) ∧
      run.2.userNorms = st.userNorms := by
  intro run
  have hrun : run = partialFitUsersZ env st [st.user.length + more, -(st.user.length + more + 2)] rows := rfl
  clear_value run
  unfold partialFitUsersZ at hrun
  rw [if_neg (by simp [hrows])] at hrun
  have hids : ([(st.user.length + more : Int), -(st.user.length + more + 2)].map Int.toNat) =
      [st.user.length + more, 0] := by
    simp only [List.map_cons, List.map_nil, List.cons.injEq, and_true]
    omega
  rw [hids] at hrun
  have hs := recalculateUser_same env st (.many [st.user.length + more, 0]) rows
  have hn : (recalculateUser env st (.many [st.user.length + more, 0]) rows).2.userNorms = st.userNorms := by
    unfold recalculateUser getYtY
    split
    · rfl
    · cases st.YtY <;> rfl
  rcases hr : recalculateUser env st (.many [st.user.length + more, 0]) rows with ⟨r, s⟩
  rw [hr] at hrun hx hs hn
  simp only at hx hs hn
  subst hx
  have hm : pyMaxZ [(st.user.length + more : Int), -(st.user.length + more + 2)] = .ok (st.user.length + more) := by
    simp only [pyMaxZ, List.foldl_cons, List.foldl_nil]
    congr 1
    omega
  simp only [hm] at hrun
  have hu : s.user = st.user := hs.1
  have hg : growToZ (st.user.length + more) s.user = st.user ++ List.replicate (more + 1) (fun _ => 0) := by
    unfold growToZ
    rw [hu, if_pos (by omega)]
    congr 2
    omega
  have hnone : [(st.user.length + more : Int), -(st.user.length + more + 2)].mapM
      (rowOf (growToZ (st.user.length + more) s.user).length) = none := by
    refine mapM_rowOf_none.mpr ⟨-(st.user.length + more + 2), by simp, ?_⟩
    rw [rowOf_none, growToZ_length, hu]
    omega
  rw [hnone, hg] at hrun
  subst hrun
  exact ⟨rfl, rfl, hn⟩

/-- The scores a query about one entity returns, or the exception. -/
def outcomeOf : Except Err (Option (Result 1 Rat)) → Except Err (List (Nat × Rat))
  | .ok (some (.answer (.one l))) => .ok l
  | .ok _ => .ok []
  | .error e => .error e

/-- **C74 is violated**, seen by the caller: two users; `similar_users(0)` answers, user 2 is unknown.  After
`partial_fit_users([2, -9], …)` has raised `IndexError`, `recommend(2)` answers, and `similar_users(0)` raises `ValueError`
because the cached norms no longer fit. -/
theorem C74_grown_answers_violated :
    let ask : List (MFCall 1 Rat) := [.query (.similarUsers (.one 0) 2 none none),
      .query (.recommend (.one 2) none 1 false none false none)]
    let run := (runCalls c10Env (freshState ⟨[![1], ![2]], [![1], ![3]]⟩)
      (ask ++ [.partialFitUsers [2, -9] [[(0, 1)], [(1, 1)]]] ++ ask)).1.map outcomeOf
    run = [.ok [(1, 1), (0, 1)], .error .indexError, .error .indexError, .error .valueError, .ok [(0, 0)]] := by
  decide +kernel

/-- **C74 is violated** by a query that raises before a `fit` that keeps the cached norms (logistic matrix factorisation):
`similar_items(0, items=[9])` raises `IndexError`, but it has computed the norms, and after the next `fit` `similar_items(0)`
works with them. -/
theorem C74_lmf_violated :
    let bad : MFCall 1 Rat := .query (.similarItems (.one 0) 1 none (some [9]))
    let rest : List (MFCall 1 Rat) := [.fit false (fun _ m => .ok ⟨m.user, [![2], ![1]]⟩) (fun _ => []) ⟨[], []⟩ 1, .query c10Query]
    let st : MFState 1 Rat := freshState ⟨[![1]], [![1], ![4]]⟩
    (runCalls c10Env st (bad :: rest)).1.map outcomeOf = [.error .indexError, .ok [], .ok [(0, 4), (1, 1 / 2)]] ∧
      (runCalls c10Env st rest).1.map outcomeOf = [.ok [], .ok [(1, 1), (0, 1)]] := by
  decide +kernel

/-- **C74 is violated** by `fit`: if a callback raises in the first iteration the exception comes out of `fit`, and the factors
are those of one iteration. -/
theorem C74_fit_violated :
    let m : AlsTrainee 1 Rat := ⟨⟨[![1]], [![1]]⟩, 1, false, none⟩
    let run := fitRun (alsLoop (alsSolver (scalarSolver Rat) (1 / 10 ^ 20) ⟨1, 1, true, true, 3, 15⟩) id 1 [[(0, 3)]])
      (fun _ => .ok ()) (fun _ => ⟨true, fun _ _ _ m => (.error .runtimeError, m)⟩) (fun k => k) 15 (some 0) m
    run.outcome.toOption = none ∧ run.model.factors.user.map (· 0) = [3 / 4] ∧
      m.factors.user.map (· 0) = [1] := by
  decide +kernel

/-! ## Examples -/

/-- A history with two raising queries and a raising update among calls that return, and what is left of it. -/
example :
    let calls : List (MFCall 1 Rat) := [.query (.recommend (.one 7) none 1 false none false none),
      .partialFitUsers [-1] [[(0, 1)]], .query (.similarItems (.one 0) 1 none (some [9])),
      .partialFitUsers [0, 1] [[(0, 1)]], .fit true c10Train (fun _ => [c10Query]) ⟨[], []⟩ 2, .query c10Query]
    let keep := [false, true, false, false, true, true]
    let st : MFState 1 Rat := freshState ⟨[![1]], [![1], ![1]]⟩
    let all := runCalls c10Env st calls
    all.1.map outcomeOf = [.error .indexError, .ok [], .error .indexError, .error .valueError, .ok [],
        .ok [(0, 4), (1, 1 / 2)]] ∧
      (runCalls c10Env st (Spec.picked calls keep)).1.map outcomeOf = [.ok [], .ok [], .ok [(0, 4), (1, 1 / 2)]] := by
  decide +kernel

/-- The hypotheses of `C74_grown_violated` can be met. -/
example : ∃ xs, (recalculateUser c10Env (freshState ⟨[![1], ![2]], [![1], ![3]]⟩) (.many [2 + 0, 0]) [[(0, 1)], []]).1 =
    .ok xs := by
  rcases h : (recalculateUser c10Env (freshState ⟨[![1], ![2]], [![1], ![3]]⟩) (.many [2 + 0, 0])
    [[(0, 1)], []]).1 with e | xs
  · have hok : (recalculateUser c10Env (freshState ⟨[![1], ![2]], [![1], ![3]]⟩) (.many [2 + 0, 0])
        [[(0, 1)], []]).1.isOkB = true := by decide +kernel
    rw [h] at hok
    cases hok
  · exact ⟨xs, rfl⟩

end Implicit
