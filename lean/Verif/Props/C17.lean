import Verif.Lemmas.State
import Verif.Props.C16

/-!
# C17 — recalculating a user or item depends only on its own row and gives the training solution

`Coherent` (the cached Gram matrix is that of the current factors) is an invariant of histories, see
C10.
-/

set_option linter.unusedSectionVars false

namespace Implicit

variable {R : Type} [LinearOrder R] [Field R] {f : Nat}

open Spec (ValidRow)

theorem applyAlpha_length (a : R) (C : SpRows R) : (applyAlpha a C).length = C.length := by
  unfold applyAlpha scaleRows; split <;> simp

theorem applyAlpha_getElem? (a : R) (C : SpRows R) (k : Nat) :
    (applyAlpha a C)[k]? = C[k]?.map fun row => row.map fun e => (e.1, a * e.2) := by
  unfold applyAlpha scaleRows
  split
  · simp
  · rename_i h
    have : a = 1 := not_not.mp h
    subst this
    cases C[k]? <;> simp

theorem validRow_scale {n : Nat} {row : List (Nat × R)} (h : ValidRow n row) (a : R) :
    ValidRow n (row.map fun e => (e.1, a * e.2)) := by
  refine ⟨?_, ?_⟩
  · have : (row.map fun e => (e.1, a * e.2)).map Prod.fst = row.map Prod.fst := by
      rw [List.map_map]; rfl
    rw [this]; exact h.nodup
  · intro e he
    obtain ⟨e', he', rfl⟩ := List.mem_map.mp he
    exact h.lt e' he'

/-- **C17** (wrong number of rows).  The call raises `ValueError` and changes nothing. -/
theorem C17_row_count (env : Env f R) (st : MFState f R) (ids : Ids) (rows : SpRows R)
    (h : rows.length ≠ ids.count) :
    recalculateUser env st ids rows = (.error .valueError, st) := by
  unfold recalculateUser
  rw [if_pos h]

section
variable [IsStrictOrderedRing R]

/-- **C17** (solution).  Recalculating returns one factor per row, the unique minimiser of that row's
loss against the current item factors (with `alpha` applied). -/
theorem C17_recalculate_user (env : Env f R) (hreg : 0 < env.p.regularization) (st : MFState f R)
    (hst : Coherent env st) (ids : Ids) (rows : SpRows R) (hl : rows.length = ids.count)
    (hv : ∀ row ∈ rows, ValidRow st.item.length row) :
    ∃ xs, (recalculateUser env st ids rows).1 = .ok xs ∧ xs.length = rows.length ∧
      ∀ (k : Nat) row x, rows[k]? = some row → xs[k]? = some x →
        Spec.NormalEquations st.item (row.map fun e => (e.1, env.p.alpha * e.2))
          env.p.regularization x ∧
        Spec.IsOptimum st.item (row.map fun e => (e.1, env.p.alpha * e.2))
          env.p.regularization x := by
  rw [recalculateUser_eq hst ids rows hl]
  have hrow : ∀ row ∈ applyAlpha env.p.alpha rows, ∃ x,
      leastSquaresRow env.S (gram st.item) st.item env.p.regularization row = .ok x := by
    intro row hrow
    obtain ⟨k, hk⟩ := List.mem_iff_getElem?.mp hrow
    rw [applyAlpha_getElem?] at hk
    obtain ⟨row', hr', rfl⟩ := Option.map_eq_some_iff.mp hk
    obtain ⟨x, hx, _⟩ := C11_least_squares_row env.S st.item _
      (validRow_scale (hv row' (List.mem_of_getElem? hr')) env.p.alpha) hreg
    exact ⟨x, hx⟩
  choose! F hF using hrow
  refine ⟨(applyAlpha env.p.alpha rows).map F, mapM_ok_of hF, by simp [applyAlpha_length], ?_⟩
  intro k row x hk hx
  rw [List.getElem?_map, applyAlpha_getElem?, hk] at hx
  have hx' : F (row.map fun e => (e.1, env.p.alpha * e.2)) = x := by simpa using hx
  have hmem : (row.map fun e => (e.1, env.p.alpha * e.2)) ∈ applyAlpha env.p.alpha rows := by
    apply List.mem_of_getElem? (i := k)
    rw [applyAlpha_getElem?, hk]; rfl
  obtain ⟨y, hy, hy'⟩ := C11_least_squares_row env.S st.item _
    (validRow_scale (hv row (List.mem_of_getElem? hk)) env.p.alpha) hreg
  have := hF _ hmem
  rw [hy] at this
  have hyx : y = x := by rw [← hx']; cases this; rfl
  rw [← hyx]; exact hy'

/-- **C17** for items. -/
theorem C17_recalculate_item (env : Env f R) (hreg : 0 < env.p.regularization) (st : MFState f R)
    (hst : Coherent env st) (ids : Ids) (rows : SpRows R) (hl : rows.length = ids.count)
    (hv : ∀ row ∈ rows, ValidRow st.user.length row) :
    ∃ xs, (recalculateItem env st ids rows).1 = .ok xs ∧ xs.length = rows.length ∧
      ∀ (k : Nat) row x, rows[k]? = some row → xs[k]? = some x →
        Spec.NormalEquations st.user (row.map fun e => (e.1, env.p.alpha * e.2))
          env.p.regularization x ∧
        Spec.IsOptimum st.user (row.map fun e => (e.1, env.p.alpha * e.2))
          env.p.regularization x := by
  -- items and users play symmetric roles
  set st' : MFState f R := ⟨st.item, st.user, st.itemNorms, st.userNorms, st.XtX, st.YtY⟩ with hs
  have hst' : Coherent env st' := ⟨hst.itemNorms, hst.userNorms, hst.XtX, hst.YtY⟩
  have := C17_recalculate_user env hreg st' hst' ids rows hl hv
  rw [recalculateUser_eq hst' ids rows hl] at this
  rw [recalculateItem_eq hst ids rows hl]
  exact this

end

/-- **C17** (same as training).  If a sweep of the direct solver over any training data `C`, from any
old factors `X`, computes the row `x` for a user with the entries `row`, then recalculating any id
with these entries returns `x`. -/
theorem C17_training (env : Env f R) (st : MFState f R) (hst : Coherent env st)
    (C : SpRows R) (X X' : List (Vec f R))
    (h : leastSquares env.S (applyAlpha env.p.alpha C) X st.item env.p.regularization = .ok X')
    (u : Nat) (row : List (Nat × R)) (x : Vec f R) (hC : C[u]? = some row) (hx : X'[u]? = some x)
    (id : Nat) : (recalculateUser env st (.one id) [row]).1 = .ok [x] := by
  obtain ⟨hl, hr⟩ := mapM_ok_iff h
  have hu : u < X.length := by
    have h1 := (List.getElem?_eq_some_iff.mp hx).1
    rw [hl] at h1; simpa using h1
  obtain ⟨y, e, hy⟩ := hr u u (by simp [hu])
  rw [hx] at hy; cases hy
  rw [applyAlpha_getElem?, hC] at e
  rw [recalculateUser_eq hst (.one id) [row] rfl]
  have h1 : applyAlpha env.p.alpha [row] = [row.map fun e => (e.1, env.p.alpha * e.2)] := by
    apply List.ext_getElem?
    intro k
    rw [applyAlpha_getElem?]
    cases k <;> rfl
  rw [h1]
  have e' : leastSquaresRow env.S (gram st.item) st.item env.p.regularization
    (row.map fun e => (e.1, env.p.alpha * e.2)) = .ok x := e
  simp only [List.mapM_cons, List.mapM_nil, e']
  rfl

/-- **C17** (independence).  Two models with the same item factors: whatever their user factors and
caches, and whatever ids and other rows the two batches contain, equal rows give equal factors. -/
theorem C17_independent (env : Env f R) (st₁ st₂ : MFState f R) (h₁ : Coherent env st₁)
    (h₂ : Coherent env st₂) (hY : st₁.item = st₂.item) (ids₁ ids₂ : Ids) (rows₁ rows₂ : SpRows R)
    (xs₁ xs₂ : List (Vec f R)) (e₁ : (recalculateUser env st₁ ids₁ rows₁).1 = .ok xs₁)
    (e₂ : (recalculateUser env st₂ ids₂ rows₂).1 = .ok xs₂) (k₁ k₂ : Nat) (hk : k₁ < rows₁.length)
    (hrow : rows₁[k₁]? = rows₂[k₂]?) : xs₁[k₁]? = xs₂[k₂]? := by
  have hl₁ : rows₁.length = ids₁.count := by
    by_contra hne
    rw [C17_row_count env st₁ ids₁ rows₁ hne] at e₁; cases e₁
  have hl₂ : rows₂.length = ids₂.count := by
    by_contra hne
    rw [C17_row_count env st₂ ids₂ rows₂ hne] at e₂; cases e₂
  rw [recalculateUser_eq h₁ ids₁ rows₁ hl₁] at e₁
  rw [recalculateUser_eq h₂ ids₂ rows₂ hl₂] at e₂
  rw [← hY] at e₂
  have hr1 : rows₁[k₁]? = some rows₁[k₁] := List.getElem?_eq_getElem hk
  obtain ⟨y₁, a1, a2⟩ := (mapM_ok_iff e₁).2 k₁ _ (by rw [applyAlpha_getElem?, hr1]; rfl)
  obtain ⟨y₂, b1, b2⟩ := (mapM_ok_iff e₂).2 k₂ _ (by rw [applyAlpha_getElem?, ← hrow, hr1]; rfl)
  rw [a1] at b1; cases b1
  rw [a2, b2]

/-- **C17** (`recommend` with `recalculate_user=True`).  The answer depends neither on the stored user
factors nor on the user ids. -/
theorem C17_recommend (env : Env f R) (st₁ st₂ : MFState f R) (h₁ : Coherent env st₁)
    (h₂ : Coherent env st₂) (hY : st₁.item = st₂.item) (ids₁ ids₂ : List Nat)
    (hids : ids₁.length = ids₂.length) (ui : Option (SpRows R)) (N : Nat) (fl : Bool)
    (fi : Option PyFilter) (items : Option (List Int)) :
    (runQuery env st₁ (.recommend (.many ids₁) ui N fl fi true items)).1 =
      (runQuery env st₂ (.recommend (.many ids₂) ui N fl fi true items)).1 := by
  have hrec : ∀ rows, (recalculateUser env st₁ (.many ids₁) rows).1 =
      (recalculateUser env st₂ (.many ids₂) rows).1 := by
    intro rows
    by_cases hl : rows.length = ids₁.length
    · rw [recalculateUser_eq h₁ (.many ids₁) rows hl,
        recalculateUser_eq h₂ (.many ids₂) rows (hl.trans hids), hY]
    · rw [C17_row_count env st₁ (.many ids₁) rows hl,
        C17_row_count env st₂ (.many ids₂) rows (fun e => hl (e.trans hids.symm))]
  unfold runQuery
  simp only
  congr 1
  unfold recommend
  have h3 : checkUserItems (.many ids₁) ui (fl || true) = checkUserItems (.many ids₂) ui (fl || true) := by
    have hc : (Ids.many ids₁).count = (Ids.many ids₂).count := hids
    unfold checkUserItems; rw [hc]
  have h4 : ∀ rows : List (List (Nat × R)), packAnswer (.many ids₁) rows =
      packAnswer (.many ids₂) rows := fun _ => rfl
  have h5 : userFactor ⟨st₁.user, st₁.item⟩ (fun rows => (recalculateUser env st₁ (.many ids₁) rows).1)
      (.many ids₁) ui true =
      userFactor ⟨st₂.user, st₂.item⟩ (fun rows => (recalculateUser env st₂ (.many ids₂) rows).1)
      (.many ids₂) ui true := by
    unfold userFactor; simp only [hrec, if_true]
  have h6 : restrictItems ⟨st₁.user, st₁.item⟩ N fi items =
      restrictItems ⟨st₂.user, st₂.item⟩ N fi items := by
    unfold restrictItems; simp only [hY]
  rw [h3, h5, h6]
  simp only [h4]

/-- **C17** (items, number of rows).  `recalculate_item` does not check: with too few rows it reads
beyond the arrays of the sparse matrix, surplus rows are silently ignored. -/
theorem C17_item_rows_unchecked (env : Env f R) (st : MFState f R) :
    (recalculateItem env st (.many [0]) []).1 = .error .undefinedBehaviour ∧
      (recalculateItem env st (.many [0]) [[], []]).1 = .ok [fun _ => 0] := by
  constructor
  · unfold recalculateItem applyAlpha scaleRows
    simp only [List.map_nil, ite_self]
    rfl
  · unfold recalculateItem
    have : applyAlpha env.p.alpha ([[], []] : SpRows R) = [[], []] := by
      unfold applyAlpha scaleRows; simp
    rw [this]
    rfl

/-- A concrete environment and state meeting the hypotheses. -/
example : ∃ (env : Env 2 Rat) (st : MFState 2 Rat), 0 < env.p.regularization ∧ Coherent env st ∧
    st.YtY = some (gram st.item) ∧ ValidRow st.item.length [(1, 3), (0, (-2 : Rat))] :=
  ⟨⟨insertionHeap, -1000, fun v => dot v v, 1 / 10 ^ 10, exactSolver 2 Rat, 1 / 10 ^ 20,
      ⟨1 / 100, 2, true, true, 3, 15⟩⟩,
    ⟨[![1, 1]], [![1, 2], ![0, 1]], none, none, some (gram [![1, 2], ![0, 1]]), none⟩,
    by norm_num, ⟨by simp, by simp, fun G e => by cases e; rfl, by simp⟩, rfl, ⟨by simp, by simp⟩⟩

end Implicit
