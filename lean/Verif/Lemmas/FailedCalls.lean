import Verif.Model.FailedCalls
import Verif.Lemmas.Queries
import Verif.Lemmas.PartialFit

/-!
# What a model's caches amount to

Two states that differ only in caches which one of them has filled with the current value cannot be told apart by any
call that does not replace the factors behind those caches.
-/

namespace Implicit

variable {R : Type} [LinearOrder R] [Field R] {f : Nat}

/-- The state with every cache filled (a filled one keeps its value, whatever it is). -/
def MFState.warm (env : Env f R) (st : MFState f R) : MFState f R :=
  ⟨st.user, st.item, some (getUserNorms env st).1, some (getItemNorms env st).1, some (getYtY st).1,
    some (getXtX st).1⟩

theorem runQuery_warm_fst (env : Env f R) (st : MFState f R) (q : Query f R) :
    (runQuery env st q).1 = (runQuery env (st.warm env) q).1 := by
  rcases st with ⟨u, i, un, inn, y, x⟩
  cases q with
  | recommend ids ui N fl fi rc its =>
    have : (fun rows => (Implicit.recalculateUser env ⟨u, i, un, inn, y, x⟩ ids rows).1) =
        fun rows => (Implicit.recalculateUser env (MFState.warm env ⟨u, i, un, inn, y, x⟩) ids rows).1 := by
      funext rows
      unfold Implicit.recalculateUser
      split <;> cases y <;> rfl
    unfold runQuery
    simp only
    rw [this]
    rfl
  | similarItems ids N fi its =>
    unfold runQuery
    simp only
    have e : (MFState.warm env ⟨u, i, un, inn, y, x⟩).item = i := rfl
    rw [e]
    split <;> cases inn <;> rfl
  | similarItemsRecalc ids rows N fi its =>
    unfold runQuery Implicit.recalculateItem
    cases x <;> cases inn <;> simp only [getXtX, MFState.warm, getItemNorms]
    all_goals
      split
      · simp_all
      · rename_i h
        simp only [Prod.mk.injEq] at h
        obtain ⟨h, rfl⟩ := h
        simp_all
  | similarUsers ids N fi its => cases un <;> rfl
  | recalculateUser ids rows =>
    unfold runQuery Implicit.recalculateUser
    simp only
    split <;> cases y <;> rfl
  | recalculateItem ids rows => cases x <;> rfl
  | explain userid rows itemid weights N =>
    unfold runQuery Implicit.explain
    simp only
    cases (applyAlpha env.p.alpha rows)[userid]? with
    | none => cases weights <;> cases y <;> rfl
    | some row => cases weights <;> cases y <;> rfl

/-- Filling caches does not change what the caches amount to. -/
theorem runQuery_warm_snd (env : Env f R) (st : MFState f R) (q : Query f R) :
    (runQuery env st q).2.warm env = st.warm env := by
  have hY : ∀ st : MFState f R, (getYtY st).2.warm env = st.warm env := by
    rintro ⟨u, i, un, inn, y, x⟩; cases un <;> cases inn <;> cases y <;> cases x <;> rfl
  have hX : ∀ st : MFState f R, (getXtX st).2.warm env = st.warm env := by
    rintro ⟨u, i, un, inn, y, x⟩; cases un <;> cases inn <;> cases y <;> cases x <;> rfl
  have hI : ∀ st : MFState f R, (getItemNorms env st).2.warm env = st.warm env := by
    rintro ⟨u, i, un, inn, y, x⟩; cases un <;> cases inn <;> cases y <;> cases x <;> rfl
  have hU : ∀ st : MFState f R, (getUserNorms env st).2.warm env = st.warm env := by
    rintro ⟨u, i, un, inn, y, x⟩; cases un <;> cases inn <;> cases y <;> cases x <;> rfl
  cases q with
  | recommend ids ui N fl fi rc its =>
    unfold runQuery
    simp only
    split
    · exact hY st
    · rfl
  | similarItems ids N fi its =>
    unfold runQuery
    simp only
    split
    · exact hI st
    · rfl
  | similarItemsRecalc ids rows N fi its =>
    unfold runQuery
    have h : (Implicit.recalculateItem env st ids rows).2.warm env = st.warm env := hX st
    rcases hr : Implicit.recalculateItem env st ids rows with ⟨r, st'⟩
    rw [hr] at h
    simp only [hr]
    cases r with
    | error e => exact h
    | ok xs => exact (hI st').trans h
  | similarUsers ids N fi its => exact hU st
  | recalculateUser ids rows =>
    show (Implicit.recalculateUser env st ids rows).2.warm env = _
    unfold Implicit.recalculateUser
    split
    · rfl
    · exact hY st
  | recalculateItem ids rows => exact hX st
  | explain userid rows itemid weights N =>
    show (Implicit.explain env st userid rows itemid weights N).2.warm env = _
    rcases explain_state env st userid rows itemid weights N with h | h
    · rw [h]
    · rw [h]; exact hY st

theorem warm_factors {env : Env f R} {a b : MFState f R} (h : a.warm env = b.warm env) :
    a.user = b.user ∧ a.item = b.item :=
  ⟨show (a.warm env).user = (b.warm env).user by rw [h], show (a.warm env).item = (b.warm env).item by rw [h]⟩

theorem pyMaxZ_ok {ids : List Int} {m : Int} (h : pyMaxZ ids = .ok m) :
    m ∈ ids ∧ ∀ i ∈ ids, i ≤ m := by
  cases ids with
  | nil => cases h
  | cons i is =>
    have hfold : ∀ (is : List Int) (i : Int), is.foldl max i ∈ i :: is ∧ ∀ j ∈ i :: is, j ≤ is.foldl max i := by
      intro is
      induction is with
      | nil => intro i; simp
      | cons k ks ih =>
        intro i
        obtain ⟨h1, h2⟩ := ih (max i k)
        refine ⟨?_, ?_⟩
        · simp only [List.foldl_cons]
          rcases List.mem_cons.mp h1 with h | h
          · rw [h]
            rcases max_choice i k with h' | h' <;> rw [h'] <;> simp
          · simp [h]
        · intro j hj
          simp only [List.foldl_cons]
          have h0 := h2 (max i k) (by simp)
          rcases List.mem_cons.mp hj with rfl | hj
          · exact le_trans (le_max_left _ _) h0
          · rcases List.mem_cons.mp hj with rfl | hj
            · exact le_trans (le_max_right _ _) h0
            · exact h2 j (by simp [hj])
    rw [← Except.ok.inj h]
    exact hfold is i

theorem growToZ_length (m : Int) (l : List (Vec f R)) :
    ((growToZ m l).length : Int) = max (l.length : Int) (m + 1) := by
  unfold growToZ
  split
  · rw [List.length_append, List.length_replicate]
    push_cast
    rw [Int.toNat_of_nonneg (by omega)]
    omega
  · omega

theorem mapM_rowOf_none {n : Nat} : ∀ {ids : List Int}, ids.mapM (rowOf n) = none ↔ ∃ i ∈ ids, rowOf n i = none
  | [] => by simp
  | i :: ids => by
    rw [List.mapM_cons]
    have ih := mapM_rowOf_none (n := n) (ids := ids)
    cases hi : rowOf n i with
    | none => simp [hi]
    | some r =>
      cases hs : ids.mapM (rowOf n) with
      | none => simpa [hi, hs] using ih.mp hs
      | some rs =>
        simp only [Option.bind_eq_bind, Option.bind_some, Option.pure_def, reduceCtorEq, false_iff]
        rintro ⟨j, hj, hn⟩
        rcases List.mem_cons.mp hj with rfl | hj
        · rw [hi] at hn; cases hn
        · have := ih.mpr ⟨j, hj, hn⟩
          rw [hs] at this; cases this

theorem rowOf_none {n : Nat} {i : Int} : rowOf n i = none ↔ (n : Int) ≤ i ∨ i < -(n : Int) := by
  unfold rowOf
  split <;> split <;> simp <;> omega

/-- Ids that cannot stop `partial_fit_*` half way: all of them count from the start, or all from the end. -/
def OneSided (ids : List Int) : Prop := (∀ i ∈ ids, 0 ≤ i) ∨ ∀ i ∈ ids, i < 0

/-- With such ids the assignment succeeds, or the table has not grown. -/
theorem oneSided_cases {ids : List Int} (h : OneSided ids) {m : Int} (hm : pyMaxZ ids = .ok m)
    (l : List (Vec f R)) (hnone : ids.mapM (rowOf (growToZ m l).length) = none) : growToZ m l = l := by
  obtain ⟨hmem, hmax⟩ := pyMaxZ_ok hm
  obtain ⟨i, hi, hr⟩ := mapM_rowOf_none.mp hnone
  have hl := growToZ_length (f := f) (R := R) m l
  rw [rowOf_none, hl] at hr
  have := hmax i hi
  rcases h with h | h
  · have := h i hi
    have := h m hmem
    omega
  · have := h m hmem
    unfold growToZ
    rw [if_neg (by omega)]

theorem recalculateUser_warm (env : Env f R) (st : MFState f R) (ids : Ids) (rows : SpRows R) :
    (recalculateUser env st ids rows).1 = (recalculateUser env (st.warm env) ids rows).1 ∧
      (recalculateUser env st ids rows).2.warm env = st.warm env ∧
      (recalculateUser env (st.warm env) ids rows).2 = st.warm env := by
  rcases st with ⟨u, i, un, inn, y, x⟩
  unfold recalculateUser
  split
  · exact ⟨rfl, rfl, rfl⟩
  · cases un <;> cases inn <;> cases y <;> cases x <;> exact ⟨rfl, rfl, rfl⟩

theorem warm_replaced (env : Env f R) (s : MFState f R) (U : List (Vec f R)) :
    MFState.warm env { s with user := U, userNorms := none, XtX := none } =
      ⟨U, s.item, some (safeNorms env.norm env.eps U), (s.warm env).itemNorms, (s.warm env).YtY, some (gram U)⟩ := by
  rcases s with ⟨u, i, un, inn, y, x⟩
  cases inn <;> cases y <;> rfl

/-- `partial_fit_users` sees only what the caches amount to, and so does everything after it. -/
theorem partialFitUsersZ_warm (env : Env f R) (st : MFState f R) {ids : List Int} (hids : OneSided ids)
    (rows : SpRows R) :
    (partialFitUsersZ env st ids rows).1 = (partialFitUsersZ env (st.warm env) ids rows).1 ∧
      (partialFitUsersZ env st ids rows).2.warm env =
        (partialFitUsersZ env (st.warm env) ids rows).2.warm env ∧
      (∀ e, (partialFitUsersZ env st ids rows).1 = .error e →
        (partialFitUsersZ env st ids rows).2.warm env = st.warm env) := by
  have hw : ∀ s : MFState f R, (s.warm env).warm env = s.warm env := fun _ => rfl
  unfold partialFitUsersZ
  split
  · exact ⟨rfl, rfl, fun _ _ => rfl⟩
  · obtain ⟨h1, h2, h3⟩ := recalculateUser_warm env st (.many (ids.map Int.toNat)) rows
    rcases hr : recalculateUser env st (.many (ids.map Int.toNat)) rows with ⟨r, s⟩
    rcases hr' : recalculateUser env (st.warm env) (.many (ids.map Int.toNat)) rows with ⟨r', s'⟩
    rw [hr, hr'] at h1
    rw [hr] at h2
    rw [hr'] at h3
    simp only at h1 h2 h3
    subst h1 h3
    cases r with
    | error e => exact ⟨rfl, h2, fun _ _ => h2⟩
    | ok xs =>
      simp only
      cases hm : pyMaxZ ids with
      | error e => exact ⟨rfl, h2, fun _ _ => h2⟩
      | ok m =>
        simp only
        have hu : s.user = (st.warm env).user := (warm_factors h2).1
        have hi : s.item = (st.warm env).item := (warm_factors h2).2
        rw [← hu]
        cases hmap : ids.mapM (rowOf (growToZ m s.user).length) with
        | none =>
          have hg := oneSided_cases hids hm s.user hmap
          simp only [hg]
          refine ⟨trivial, ?_, fun _ _ => h2⟩
          have e : ({ st.warm env with user := s.user } : MFState f R) = st.warm env := by rw [hu]
          show s.warm env = MFState.warm env { st.warm env with user := s.user }
          rw [e]
          exact h2
        | some rs =>
          refine ⟨rfl, ?_, fun e he => by cases he⟩
          rw [warm_replaced, warm_replaced, hw, h2, hi]

theorem warm_swap (env : Env f R) (st : MFState f R) : st.swap.warm env = (st.warm env).swap := by
  rcases st with ⟨u, i, un, inn, y, x⟩
  cases un <;> cases inn <;> cases y <;> cases x <;> rfl

theorem partialFitItemsZ_swap (env : Env f R) (st : MFState f R) (ids : List Int) (rows : SpRows R) :
    partialFitItemsZ env st ids rows =
      ((partialFitUsersZ env st.swap ids rows).1, (partialFitUsersZ env st.swap ids rows).2.swap) := by
  unfold partialFitItemsZ partialFitUsersZ
  by_cases hl : ids.length = rows.length
  · rw [if_neg (by simpa using hl), if_neg (by simpa using hl),
      recalculateItem_swap env st (.many (ids.map Int.toNat)) rows (by simp [Ids.count, hl])]
    rcases recalculateUser env st.swap (.many (ids.map Int.toNat)) rows with ⟨r, s⟩
    cases r with
    | error e => rfl
    | ok xs =>
      simp only
      cases pyMaxZ ids with
      | error e => rfl
      | ok m =>
        simp only
        have : s.swap.item = s.user := rfl
        rw [this]
        cases ids.mapM (rowOf (growToZ m s.user).length) <;> rfl
  · rw [if_pos (by simpa using hl), if_pos (by simpa using hl)]
    rfl

theorem partialFitItemsZ_warm (env : Env f R) (st : MFState f R) {ids : List Int} (hids : OneSided ids)
    (rows : SpRows R) :
    (partialFitItemsZ env st ids rows).1 = (partialFitItemsZ env (st.warm env) ids rows).1 ∧
      (partialFitItemsZ env st ids rows).2.warm env =
        (partialFitItemsZ env (st.warm env) ids rows).2.warm env ∧
      (∀ e, (partialFitItemsZ env st ids rows).1 = .error e →
        (partialFitItemsZ env st ids rows).2.warm env = st.warm env) := by
  obtain ⟨h1, h2, h3⟩ := partialFitUsersZ_warm env st.swap hids rows
  rw [warm_swap] at h1 h2
  simp only [partialFitItemsZ_swap, warm_swap]
  refine ⟨h1, by rw [h2], fun e he => ?_⟩
  rw [h3 e he, warm_swap]
  rfl

end Implicit
