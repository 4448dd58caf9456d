import Verif.Model.ALSState
import Verif.Lemmas.Recommend

set_option linter.unusedSectionVars false

namespace Implicit

variable {R : Type} [LinearOrder R] [Field R] {f : Nat}

/-- Every cache that is filled holds the value for the current factors. -/
structure Coherent (env : Env f R) (st : MFState f R) : Prop where
  userNorms : ∀ n, st.userNorms = some n → n = safeNorms env.norm env.eps st.user
  itemNorms : ∀ n, st.itemNorms = some n → n = safeNorms env.norm env.eps st.item
  YtY : ∀ G, st.YtY = some G → G = gram st.item
  XtX : ∀ G, st.XtX = some G → G = gram st.user

theorem coherent_fresh (env : Env f R) (m : Factors f R) : Coherent env (freshState m) :=
  ⟨by simp [freshState], by simp [freshState], by simp [freshState], by simp [freshState]⟩

theorem getYtY_fst {env : Env f R} {st : MFState f R} (h : Coherent env st) :
    (getYtY st).1 = gram st.item := by
  unfold getYtY
  cases hG : st.YtY with
  | none => rfl
  | some G => exact h.YtY G hG

theorem getXtX_fst {env : Env f R} {st : MFState f R} (h : Coherent env st) :
    (getXtX st).1 = gram st.user := by
  unfold getXtX
  cases hG : st.XtX with
  | none => rfl
  | some G => exact h.XtX G hG

theorem getUserNorms_fst {env : Env f R} {st : MFState f R} (h : Coherent env st) :
    (getUserNorms env st).1 = safeNorms env.norm env.eps st.user := by
  unfold getUserNorms
  cases hG : st.userNorms with
  | none => rfl
  | some G => exact h.userNorms G hG

theorem getItemNorms_fst {env : Env f R} {st : MFState f R} (h : Coherent env st) :
    (getItemNorms env st).1 = safeNorms env.norm env.eps st.item := by
  unfold getItemNorms
  cases hG : st.itemNorms with
  | none => rfl
  | some G => exact h.itemNorms G hG

/-- The caches change, the factors do not. -/
def SameFactors (st st' : MFState f R) : Prop := st'.user = st.user ∧ st'.item = st.item

theorem SameFactors.refl (st : MFState f R) : SameFactors st st := ⟨rfl, rfl⟩

theorem SameFactors.trans {a b c : MFState f R} (h1 : SameFactors a b) (h2 : SameFactors b c) :
    SameFactors a c := ⟨h2.1.trans h1.1, h2.2.trans h1.2⟩

theorem getYtY_same (st : MFState f R) : SameFactors st (getYtY st).2 := by
  unfold getYtY
  cases st.YtY <;> exact ⟨rfl, rfl⟩

theorem getXtX_same (st : MFState f R) : SameFactors st (getXtX st).2 := by
  unfold getXtX
  cases st.XtX <;> exact ⟨rfl, rfl⟩

theorem getUserNorms_same (env : Env f R) (st : MFState f R) :
    SameFactors st (getUserNorms env st).2 := by
  unfold getUserNorms
  cases st.userNorms <;> exact ⟨rfl, rfl⟩

theorem getItemNorms_same (env : Env f R) (st : MFState f R) :
    SameFactors st (getItemNorms env st).2 := by
  unfold getItemNorms
  cases st.itemNorms <;> exact ⟨rfl, rfl⟩

theorem getYtY_coherent {env : Env f R} {st : MFState f R} (h : Coherent env st) :
    Coherent env (getYtY st).2 := by
  unfold getYtY
  cases hG : st.YtY with
  | some G => exact h
  | none => exact ⟨h.userNorms, h.itemNorms, fun G e => by cases e; rfl, h.XtX⟩

theorem getXtX_coherent {env : Env f R} {st : MFState f R} (h : Coherent env st) :
    Coherent env (getXtX st).2 := by
  unfold getXtX
  cases hG : st.XtX with
  | some G => exact h
  | none => exact ⟨h.userNorms, h.itemNorms, h.YtY, fun G e => by cases e; rfl⟩

theorem getUserNorms_coherent {env : Env f R} {st : MFState f R} (h : Coherent env st) :
    Coherent env (getUserNorms env st).2 := by
  unfold getUserNorms
  cases hG : st.userNorms with
  | some G => exact h
  | none => exact ⟨fun G e => by cases e; rfl, h.itemNorms, h.YtY, h.XtX⟩

theorem getItemNorms_coherent {env : Env f R} {st : MFState f R} (h : Coherent env st) :
    Coherent env (getItemNorms env st).2 := by
  unfold getItemNorms
  cases hG : st.itemNorms with
  | some G => exact h
  | none => exact ⟨h.userNorms, fun G e => by cases e; rfl, h.YtY, h.XtX⟩

/-! ### recalculation -/

/-- The rows of `_least_squares` when there is one row of data per result row. -/
theorem leastSquaresNative_rows (S : Solver f R) (G : Mat f R) (C : SpRows R) (Y : List (Vec f R))
    (reg : R) : leastSquaresNative S G C C.length Y reg = C.mapM (leastSquaresRow S G Y reg) := by
  unfold leastSquaresNative
  have key : ∀ (pre suf : SpRows R),
      (List.range' pre.length suf.length).mapM (fun u =>
        match (pre ++ suf)[u]? with
        | none => Except.error Err.undefinedBehaviour
        | some row => leastSquaresRow S G Y reg row) = suf.mapM (leastSquaresRow S G Y reg) := by
    intro pre suf
    induction suf generalizing pre with
    | nil => rfl
    | cons row suf ih =>
      have hlen : (row :: suf).length = suf.length + 1 := rfl
      rw [hlen, List.range'_succ, List.mapM_cons, List.mapM_cons]
      have h1 : (pre ++ row :: suf)[pre.length]? = some row := by simp
      rw [h1]
      have h2 := ih (pre ++ [row])
      rw [List.append_assoc, List.singleton_append, List.length_append] at h2
      simp only [List.length_singleton] at h2
      rw [h2]
  have := key [] C
  rw [List.range_eq_range']
  exact this

theorem recalculateUser_eq {env : Env f R} {st : MFState f R} (h : Coherent env st) (ids : Ids)
    (rows : SpRows R) (hrows : rows.length = ids.count) :
    (recalculateUser env st ids rows).1 = (applyAlpha env.p.alpha rows).mapM
      (leastSquaresRow env.S (gram st.item) st.item env.p.regularization) := by
  unfold recalculateUser
  rw [if_neg (by simpa using hrows)]
  show leastSquaresNative env.S (getYtY st).1 _ _ (getYtY st).2.item _ = _
  rw [getYtY_fst h, (getYtY_same st).2]
  have hl : (applyAlpha env.p.alpha rows).length = ids.count := by
    rw [← hrows]; unfold applyAlpha scaleRows; split <;> simp
  rw [← hl, leastSquaresNative_rows]

theorem recalculateItem_eq {env : Env f R} {st : MFState f R} (h : Coherent env st) (ids : Ids)
    (rows : SpRows R) (hrows : rows.length = ids.count) :
    (recalculateItem env st ids rows).1 = (applyAlpha env.p.alpha rows).mapM
      (leastSquaresRow env.S (gram st.user) st.user env.p.regularization) := by
  unfold recalculateItem
  show leastSquaresNative env.S (getXtX st).1 _ _ (getXtX st).2.user _ = _
  rw [getXtX_fst h, (getXtX_same st).1]
  have hl : (applyAlpha env.p.alpha rows).length = ids.count := by
    rw [← hrows]; unfold applyAlpha scaleRows; split <;> simp
  rw [← hl, leastSquaresNative_rows]

end Implicit
