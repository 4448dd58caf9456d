import Verif.Lemmas.PartialFit
import Verif.Props.C17

/-!
# C18 — `partial_fit` touches exactly the named rows
-/

set_option linter.unusedSectionVars false

namespace Implicit

variable {R : Type} [LinearOrder R] [Field R] {f : Nat}

open Spec (ValidRow RowsUpdated)

/-- Outcomes of `partial_fit_users`, case by case. -/
theorem partialFitUsers_cases (env : Env f R) (st : MFState f R) (ids : List Nat) (rows : SpRows R) :
    (∃ e, (partialFitUsers env st ids rows).1 = .error e ∧
      SameFactors st (partialFitUsers env st ids rows).2) ∨
    (∃ xs m, ids.length = rows.length ∧ (recalculateUser env st (.many ids) rows).1 = .ok xs ∧
      pyMax ids = .ok m ∧ (partialFitUsers env st ids rows).1 = .ok () ∧
      (partialFitUsers env st ids rows).2.user = assignRows (growTo m st.user) (ids.zip xs) ∧
      (partialFitUsers env st ids rows).2.item = st.item ∧
      (partialFitUsers env st ids rows).2.userNorms = none ∧
      (partialFitUsers env st ids rows).2.XtX = none ∧
      (partialFitUsers env st ids rows).2.itemNorms = st.itemNorms ∧
      (partialFitUsers env st ids rows).2.YtY = (getYtY st).2.YtY) := by
  by_cases hl : ids.length = rows.length
  · have hst : (recalculateUser env st (.many ids) rows).2 = (getYtY st).2 := by
      unfold recalculateUser
      rw [if_neg (by simpa [Ids.count] using hl.symm)]
    have hs := getYtY_same st
    have hN : (getYtY st).2.itemNorms = st.itemNorms := by
      unfold getYtY; cases st.YtY <;> rfl
    unfold partialFitUsers
    rw [if_neg (by simpa using hl)]
    rcases hr : recalculateUser env st (.many ids) rows with ⟨r, st'⟩
    rw [hr] at hst
    simp only at hst
    subst hst
    cases r with
    | error e => exact .inl ⟨e, rfl, hs⟩
    | ok xs =>
      simp only
      cases hm : pyMax ids with
      | error e => exact .inl ⟨e, rfl, hs⟩
      | ok m => exact .inr ⟨xs, m, hl, rfl, rfl, rfl, by rw [← hs.1], hs.2, rfl, rfl, hN, rfl⟩
  · left
    unfold partialFitUsers
    rw [if_pos (by simpa using hl)]
    exact ⟨_, rfl, SameFactors.refl _⟩

/-- **C18** (users).  If the call returns, the user table was updated at exactly the named rows, with
the recalculated factors; the item table is unchanged. -/
theorem C18_users (env : Env f R) (st : MFState f R) (ids : List Nat) (rows : SpRows R)
    (h : (partialFitUsers env st ids rows).1 = .ok ()) :
    ∃ xs, (recalculateUser env st (.many ids) rows).1 = .ok xs ∧
      RowsUpdated (fun _ => 0) ids xs st.user (partialFitUsers env st ids rows).2.user ∧
      (partialFitUsers env st ids rows).2.item = st.item := by
  rcases partialFitUsers_cases env st ids rows with ⟨e, he, _⟩ | ⟨xs, m, _, hx, hm, _, hu, hi, _⟩
  · rw [h] at he; cases he
  · refine ⟨xs, hx, ?_, hi⟩
    rw [hu]
    exact rowsUpdated_assign hm st.user

/-- **C18** (items). -/
theorem C18_items (env : Env f R) (st : MFState f R) (ids : List Nat) (rows : SpRows R)
    (h : (partialFitItems env st ids rows).1 = .ok ()) :
    ∃ xs, (recalculateItem env st (.many ids) rows).1 = .ok xs ∧
      RowsUpdated (fun _ => 0) ids xs st.item (partialFitItems env st ids rows).2.item ∧
      (partialFitItems env st ids rows).2.user = st.user := by
  rw [partialFitItems_swap] at h ⊢
  obtain ⟨xs, hx, hU, hI⟩ := C18_users env st.swap ids rows h
  have hl : rows.length = ids.length := by
    by_contra hne
    have := C17_row_count env st.swap (.many ids) rows hne
    rw [this] at hx; cases hx
  rw [recalculateItem_swap env st (.many ids) rows hl]
  exact ⟨xs, hx, hU, hI⟩

/-- **C18** (errors).  A call that raises leaves both tables unchanged. -/
theorem C18_users_error (env : Env f R) (st : MFState f R) (ids : List Nat) (rows : SpRows R) (e : Err)
    (h : (partialFitUsers env st ids rows).1 = .error e) :
    (partialFitUsers env st ids rows).2.user = st.user ∧
      (partialFitUsers env st ids rows).2.item = st.item := by
  rcases partialFitUsers_cases env st ids rows with ⟨_, _, hs⟩ | ⟨xs, m, _, _, _, hok, _⟩
  · exact hs
  · rw [h] at hok; cases hok

theorem C18_items_error (env : Env f R) (st : MFState f R) (ids : List Nat) (rows : SpRows R) (e : Err)
    (h : (partialFitItems env st ids rows).1 = .error e) :
    (partialFitItems env st ids rows).2.user = st.user ∧
      (partialFitItems env st ids rows).2.item = st.item := by
  rw [partialFitItems_swap] at h ⊢
  have := C18_users_error env st.swap ids rows e h
  exact ⟨this.2, this.1⟩

section
variable [IsStrictOrderedRing R]

/-- **C18** (users, when the call returns).  With one valid row per id and at least one id the call
returns; with none, or a different number of rows, it raises `ValueError`. -/
theorem C18_users_returns (env : Env f R) (hreg : 0 < env.p.regularization) (st : MFState f R)
    (hst : Coherent env st) (ids : List Nat) (rows : SpRows R)
    (hv : ∀ row ∈ rows, ValidRow st.item.length row) :
    (partialFitUsers env st ids rows).1 =
      if ids.length = rows.length ∧ ids ≠ [] then .ok () else .error .valueError := by
  unfold partialFitUsers
  by_cases hl : ids.length = rows.length
  · rw [if_neg (by simpa using hl)]
    obtain ⟨xs, hx, _⟩ := C17_recalculate_user env hreg st hst (.many ids) rows hl.symm hv
    rcases hr : recalculateUser env st (.many ids) rows with ⟨r, st'⟩
    rw [hr] at hx
    simp only at hx
    subst hx
    simp only
    cases ids with
    | nil => simp [pyMax]
    | cons i is => rw [if_pos ⟨hl, by simp⟩]; rfl
  · rw [if_pos (by simpa using hl), if_neg (fun h => hl h.1)]

theorem C18_items_returns (env : Env f R) (hreg : 0 < env.p.regularization) (st : MFState f R)
    (hst : Coherent env st) (ids : List Nat) (rows : SpRows R)
    (hv : ∀ row ∈ rows, ValidRow st.user.length row) :
    (partialFitItems env st ids rows).1 =
      if ids.length = rows.length ∧ ids ≠ [] then .ok () else .error .valueError := by
  rw [partialFitItems_swap]
  exact C18_users_returns env hreg st.swap hst.swap ids rows hv

end

/-- **C18** (repetition).  Repeating the call returns again and changes no factor. -/
theorem C18_users_idempotent (env : Env f R) (st : MFState f R) (hst : Coherent env st)
    (ids : List Nat) (rows : SpRows R) (h : (partialFitUsers env st ids rows).1 = .ok ()) :
    let st' := (partialFitUsers env st ids rows).2
    (partialFitUsers env st' ids rows).1 = .ok () ∧
      (partialFitUsers env st' ids rows).2.user = st'.user ∧
      (partialFitUsers env st' ids rows).2.item = st'.item := by
  intro st'
  rcases partialFitUsers_cases env st ids rows with
    ⟨e, he, _⟩ | ⟨xs, m, hl, hx, hm, _, hu, hi, hun, hX, hin, hY⟩
  · rw [h] at he; cases he
  have hc := getYtY_coherent hst
  have hst' : Coherent env st' := by
    refine ⟨fun n e => ?_, fun n e => ?_, fun G e => ?_, fun G e => ?_⟩
    · rw [hun] at e; cases e
    · rw [hin] at e; rw [hi]; exact hst.itemNorms n e
    · rw [hY] at e; rw [hi, ← (getYtY_same st).2]; exact hc.YtY G e
    · rw [hX] at e; cases e
  have hrec : (recalculateUser env st' (.many ids) rows).1 = .ok xs := by
    rw [recalculateUser_eq hst' (.many ids) rows hl.symm, ← hx,
      recalculateUser_eq hst (.many ids) rows hl.symm, hi]
  have hxl : xs.length = ids.length := by
    rw [recalculateUser_eq hst (.many ids) rows hl.symm] at hx
    rw [(mapM_ok_iff hx).1, applyAlpha_length, hl]
  rcases partialFitUsers_cases env st' ids rows with
    ⟨e, he, _⟩ | ⟨xs', m', _, hx', hm', hok, hu', hi', _⟩
  · exfalso
    unfold partialFitUsers at he
    rw [if_neg (by simpa using hl)] at he
    rcases hr : recalculateUser env st' (.many ids) rows with ⟨r, st''⟩
    rw [hr] at he hrec
    simp only at hrec
    subst hrec
    simp only [hm] at he
    cases he
  · refine ⟨hok, ?_, hi'⟩
    rw [hrec] at hx'; cases hx'
    have h1 : RowsUpdated (fun _ => 0) ids xs st.user st'.user := by
      rw [hu]; exact rowsUpdated_assign hm st.user
    have h2 : RowsUpdated (fun _ => 0) ids xs st'.user (partialFitUsers env st' ids rows).2.user := by
      rw [hu']; exact rowsUpdated_assign hm' st'.user
    exact rowsUpdated_unique hxl h2 (rowsUpdated_idem h1)

theorem C18_items_idempotent (env : Env f R) (st : MFState f R) (hst : Coherent env st)
    (ids : List Nat) (rows : SpRows R) (h : (partialFitItems env st ids rows).1 = .ok ()) :
    let st' := (partialFitItems env st ids rows).2
    (partialFitItems env st' ids rows).1 = .ok () ∧
      (partialFitItems env st' ids rows).2.user = st'.user ∧
      (partialFitItems env st' ids rows).2.item = st'.item := by
  intro st'
  have e : st'.swap = (partialFitUsers env st.swap ids rows).2 := by
    show MFState.swap (partialFitItems env st ids rows).2 = _
    rw [partialFitItems_swap]; rfl
  rw [partialFitItems_swap] at h
  obtain ⟨h1, h2, h3⟩ := C18_users_idempotent env st.swap hst.swap ids rows h
  rw [← e] at h1 h2 h3
  rw [partialFitItems_swap]
  exact ⟨h1, h3, h2⟩

/-- A `partial_fit` call; which user ids and which item ids it names. -/
inductive IsPartialFit : Op f R → List Nat → List Nat → Prop where
  | users (ids : List Nat) (rows : SpRows R) : IsPartialFit (.partialFitUsers ids rows) ids []
  | items (ids : List Nat) (rows : SpRows R) : IsPartialFit (.partialFitItems ids rows) [] ids

/-- What may happen to row `u` of a table if it is not named: it stays, or appears as zero. -/
def Untouched (u : Nat) (old new : List (Vec f R)) : Prop :=
  (u < old.length → new[u]? = old[u]?) ∧
    (old.length ≤ u → new[u]? = none ∨ new[u]? = some fun _ => 0)

theorem untouched_refl (u : Nat) (l : List (Vec f R)) : Untouched u l l :=
  ⟨fun _ => rfl, fun h => .inl (List.getElem?_eq_none h)⟩

theorem untouched_of_updated {u : Nat} {ids : List Nat} {xs old new : List (Vec f R)}
    (h : RowsUpdated (fun _ => 0) ids xs old new) (hu : u ∉ ids) : Untouched u old new := by
  refine ⟨fun h' => h.kept u h' hu, fun h' => ?_⟩
  by_cases hn : u < new.length
  · exact .inr (h.zeros u h' hn hu)
  · exact .inl (List.getElem?_eq_none (by omega))

theorem untouched_trans {u : Nat} {a b c : List (Vec f R)} (h1 : Untouched u a b)
    (h2 : Untouched u b c) : Untouched u a c := by
  refine ⟨fun h => ?_, fun h => ?_⟩
  · have hb : u < b.length := by
      have := h1.1 h
      rw [List.getElem?_eq_getElem h] at this
      exact (List.getElem?_eq_some_iff.mp this).1
    rw [h2.1 hb, h1.1 h]
  · by_cases hb : u < b.length
    · rw [h2.1 hb]; exact h1.2 h
    · exact h2.2 (by omega)

theorem partialFit_untouched (env : Env f R) (st : MFState f R) {op : Op f R} {us is : List Nat}
    (hop : IsPartialFit op us is) (u : Nat) :
    (u ∉ us → Untouched u st.user (runOp env st op).user) ∧
      (u ∉ is → Untouched u st.item (runOp env st op).item) := by
  cases hop with
  | users ids rows =>
    show (_ → Untouched u _ (partialFitUsers env st us rows).2.user) ∧
      (_ → Untouched u _ (partialFitUsers env st us rows).2.item)
    cases h : (partialFitUsers env st us rows).1 with
    | error e =>
      obtain ⟨h1, h2⟩ := C18_users_error env st us rows e h
      rw [h1, h2]; exact ⟨fun _ => untouched_refl _ _, fun _ => untouched_refl _ _⟩
    | ok _ =>
      obtain ⟨xs, _, h1, h2⟩ := C18_users env st us rows h
      rw [h2]; exact ⟨fun hu => untouched_of_updated h1 hu, fun _ => untouched_refl _ _⟩
  | items ids rows =>
    show (_ → Untouched u _ (partialFitItems env st is rows).2.user) ∧
      (_ → Untouched u _ (partialFitItems env st is rows).2.item)
    cases h : (partialFitItems env st is rows).1 with
    | error e =>
      obtain ⟨h1, h2⟩ := C18_items_error env st is rows e h
      rw [h1, h2]; exact ⟨fun _ => untouched_refl _ _, fun _ => untouched_refl _ _⟩
    | ok _ =>
      obtain ⟨xs, _, h1, h2⟩ := C18_items env st is rows h
      rw [h2]; exact ⟨fun _ => untouched_refl _ _, fun hu => untouched_of_updated h1 hu⟩

/-- **C18** (histories).  After any sequence of `partial_fit_users` and `partial_fit_items` calls,
returning or raising, a user (item) that none of them names has its old factor, or a zero factor if
it did not exist. -/
theorem C18_history (env : Env f R) (u : Nat) (ops : List (Op f R)) (st : MFState f R)
    (hops : ∀ op ∈ ops, ∃ us is, IsPartialFit op us is) :
    ((∀ op ∈ ops, ∀ us is, IsPartialFit op us is → u ∉ us) →
      Untouched u st.user (runOps env st ops).user) ∧
    ((∀ op ∈ ops, ∀ us is, IsPartialFit op us is → u ∉ is) →
      Untouched u st.item (runOps env st ops).item) := by
  induction ops generalizing st with
  | nil => exact ⟨fun _ => untouched_refl _ _, fun _ => untouched_refl _ _⟩
  | cons op ops ih =>
    obtain ⟨us, is, hop⟩ := hops op (by simp)
    obtain ⟨a1, a2⟩ := partialFit_untouched env st hop u
    obtain ⟨b1, b2⟩ := ih (runOp env st op) fun o ho => hops o (List.mem_cons_of_mem _ ho)
    refine ⟨fun h => ?_, fun h => ?_⟩
    · exact untouched_trans (a1 (h op (by simp) us is hop))
        (b1 fun o ho => h o (List.mem_cons_of_mem _ ho))
    · exact untouched_trans (a2 (h op (by simp) us is hop))
        (b2 fun o ho => h o (List.mem_cons_of_mem _ ho))

/-- The environment of the examples: one factor, exact solver. -/
def exampleEnv : Env 1 Rat :=
  ⟨insertionHeap, -1000, fun v => dot v v, 1 / 10 ^ 10, scalarSolver Rat, 1 / 10 ^ 20,
    ⟨1, 1, true, true, 3, 15⟩⟩

/-- Adding users 3 and 0 to a model with one user: user 0 is replaced, users 1 and 2 are zero. -/
example :
    let r := partialFitUsers exampleEnv (freshState ⟨[![5]], [![1], ![1]]⟩) [3, 0] [[(0, 2)], [(1, 1)]]
    r.1.isOkB = true ∧ (r.2.user.map fun x => x 0) = [1 / 3, 0, 0, 1 / 2] := by
  decide +kernel

end Implicit
