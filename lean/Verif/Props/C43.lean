import Verif.Model.Ann

/-!
# C43 — batch adaptation is row-aligned with explicit padding
-/

set_option linter.unusedSectionVars false

namespace Implicit

variable {R σ : Type}

/-- What a batch row should be: the first `N` results, then `(-1, lowest)` up to `N` columns. -/
def Spec.IsPaddedRow (lowest : R) (N : Nat) (single row : List (Int × R)) : Prop :=
  row.length = N ∧ ∀ j < N, row[j]? = if j < single.length then single[j]? else some (-1, lowest)

theorem batchRow_padded (lowest : R) (N : Nat) (out : List (Int × R)) :
    Spec.IsPaddedRow lowest N out (batchRow lowest N out) := by
  unfold batchRow Spec.IsPaddedRow
  refine ⟨by simp; omega, fun j hj => ?_⟩
  rw [List.getElem?_take, if_pos hj]
  split_ifs with h
  · rw [List.getElem?_append_left h]
  · rw [List.getElem?_append_right (by omega), List.getElem?_replicate, if_pos (by omega)]

/-- What the single call for position `i` is given. -/
def argOf (rows : Option (SpRows R)) (i : Nat) : Option (SpRows R) :=
  match rows with
  | none => none
  | some rs => some [rs.getD i []]

/-- `batchCall` run on a single-query function that does not change its state. -/
theorem batchCall_rows (lowest : R) (N : Nat)
    (func : σ → Nat → Option (SpRows R) → Except Err (List (Int × R)) × σ) (s : σ)
    (pure : ∀ id a, (func s id a).2 = s) (rows : Option (SpRows R)) (single : Nat → List (Int × R)) :
    ∀ (ids : List Nat) (i : Nat),
      (∀ rs, rows = some rs → i + ids.length ≤ rs.length) →
      (∀ (j : Nat) id, ids[j]? = some id →
        (func s id (argOf rows (i + j))).1 = .ok (single (i + j))) →
      batchCall lowest N func rows i ids s =
        (.ok ((List.range' i ids.length).map fun k => batchRow lowest N (single k)), s)
  | [], i, _, _ => rfl
  | id :: ids, i, hrows, h => by
    have h0 := h 0 id rfl
    rw [Nat.add_zero] at h0
    have harg : batchArg rows i = .ok (argOf rows i) := by
      cases rows with
      | none => rfl
      | some rs =>
        have hlt : i < rs.length := by
          have := hrows rs rfl
          simp at this; omega
        simp [batchArg, argOf, List.getElem?_eq_getElem hlt, List.getD_eq_getElem?_getD]
    have ih := batchCall_rows lowest N func s pure rows single ids (i + 1)
      (fun rs hr => by have := hrows rs hr; simp at this; omega)
      (fun j id hj => by
        have := h (j + 1) id (by simpa using hj)
        rw [show i + 1 + j = i + (j + 1) by omega]; exact this)
    unfold batchCall
    simp only [harg]
    rcases hr : func s id (argOf rows i) with ⟨r, s'⟩
    have hs := pure id (argOf rows i)
    rw [hr] at h0 hs
    simp only at h0 hs
    subst h0 hs
    simp only [ih]
    rw [List.length_cons, List.range'_succ, List.map_cons]

/-- **C43**.  If every single query succeeds, the batch succeeds with one row per id; row `i` is the
result of the single query for `ids[i]`, given row `i` of the sparse matrix when there is one, padded or
cut to `N` columns. -/
theorem C43_batch (lowest : R) (N : Nat)
    (func : σ → Nat → Option (SpRows R) → Except Err (List (Int × R)) × σ) (s : σ)
    (pure : ∀ id a, (func s id a).2 = s) (rows : Option (SpRows R)) (ids : List Nat)
    (hrows : ∀ rs, rows = some rs → ids.length ≤ rs.length) (single : Nat → List (Int × R))
    (h : ∀ (i : Nat) id, ids[i]? = some id → (func s id (argOf rows i)).1 = .ok (single i)) :
    ∃ out, batchCall lowest N func rows 0 ids s = (.ok out, s) ∧ out.length = ids.length ∧
      ∀ (i : Nat) row, out[i]? = some row → Spec.IsPaddedRow lowest N (single i) row := by
  refine ⟨_, batchCall_rows lowest N func s pure rows single ids 0 (by simpa using hrows)
    (by simpa using h), by simp, ?_⟩
  intro i row hi
  rw [List.getElem?_map] at hi
  obtain ⟨k, hk, rfl⟩ := Option.map_eq_some_iff.mp hi
  have : k = i := by
    rw [List.getElem?_range'] at hk
    · simpa using hk.symm
    · exact (by simpa using (List.getElem?_eq_some_iff.mp hk).1)
  subst this
  exact batchRow_padded _ _ _

/-- **C43** (errors).  If the batch succeeds, every single query succeeded: nothing is invented for a
query that raised, and every id had its row of the sparse matrix. -/
theorem C43_batch_sound (lowest : R) (N : Nat)
    (func : σ → Nat → Option (SpRows R) → Except Err (List (Int × R)) × σ) (s : σ)
    (pure : ∀ id a, (func s id a).2 = s) (rows : Option (SpRows R)) :
    ∀ (ids : List Nat) (i : Nat) out s', batchCall lowest N func rows i ids s = (.ok out, s') →
      s' = s ∧ out.length = ids.length ∧ (∀ rs, rows = some rs → ids ≠ [] → i + ids.length ≤ rs.length) ∧
      ∀ (j : Nat) id row, ids[j]? = some id → out[j]? = some row →
        ∃ r, (func s id (argOf rows (i + j))).1 = .ok r ∧ Spec.IsPaddedRow lowest N r row
  | [], i, out, s', h => by
    unfold batchCall at h
    simp only [Prod.mk.injEq, Except.ok.injEq] at h
    obtain ⟨rfl, rfl⟩ := h
    simp
  | id :: ids, i, out, s', h => by
    unfold batchCall at h
    have key : ∀ a, argOf rows i = a →
        (match func s id a with
          | (.error e, s) => (Except.error e, s)
          | (.ok out, s) =>
            match batchCall lowest N func rows (i + 1) ids s with
            | (.error e, s) => (Except.error e, s)
            | (.ok rest, s) => (Except.ok (batchRow lowest N out :: rest), s)) = (.ok out, s') →
        s' = s ∧ out.length = (id :: ids).length ∧
        (∀ rs, rows = some rs → ids ≠ [] → i + 1 + ids.length ≤ rs.length) ∧
        ∀ (j : Nat) id' row, (id :: ids)[j]? = some id' → out[j]? = some row →
          ∃ r, (func s id' (argOf rows (i + j))).1 = .ok r ∧ Spec.IsPaddedRow lowest N r row := by
      intro a ha h
      have hs := pure id a
      rcases hr : func s id a with ⟨r, s1⟩
      rw [hr] at h hs
      simp only at hs
      subst hs
      cases r with
      | error e => simp at h
      | ok r =>
        simp only at h
        rcases hq : batchCall lowest N func rows (i + 1) ids s1 with ⟨q, s2⟩
        rw [hq] at h
        cases q with
        | error e => simp at h
        | ok rest =>
          simp only [Prod.mk.injEq, Except.ok.injEq] at h
          obtain ⟨rfl, rfl⟩ := h
          obtain ⟨h1, h2, h3, h4⟩ := C43_batch_sound lowest N func s1 pure rows ids (i + 1) rest s2 hq
          refine ⟨h1, by simp [h2], h3, ?_⟩
          intro j id' row hj hrow
          cases j with
          | zero =>
            simp only [List.getElem?_cons_zero, Option.some.injEq] at hj hrow
            subst hj hrow
            exact ⟨r, by rw [Nat.add_zero, ha, hr], batchRow_padded _ _ _⟩
          | succ j =>
            have := h4 j id' row (by simpa using hj) (by simpa using hrow)
            rwa [show i + 1 + j = i + (j + 1) by omega] at this
    cases rows with
    | none =>
      obtain ⟨h1, h2, h3, h4⟩ := key none rfl h
      exact ⟨h1, h2, by simp, h4⟩
    | some rs =>
      cases hi : rs[i]? with
      | none => simp [batchArg, hi] at h
      | some r =>
        have hlt := (List.getElem?_eq_some_iff.mp hi).1
        simp only [batchArg, hi] at h
        obtain ⟨h1, h2, h3, h4⟩ := key (some [r]) (by
          simp [argOf, List.getD_eq_getElem?_getD, hi]) h
        refine ⟨h1, h2, ?_, h4⟩
        intro rs' hrs _
        cases hrs
        cases ids with
        | nil => simp; omega
        | cons a l => have := h3 rs rfl (by simp); simp at this ⊢; omega

/-- Results shorter than, equal to and longer than `N`, each with its own row. -/
example : batchCall (σ := Unit) (R := Int) (-99) 2
    (fun s id rows => (.ok ((rows.getD []).flatten.map fun e => ((e.1 + id : Int), e.2)), s))
    (some [[(1, 5)], [(2, 6), (3, 7), (4, 8)], []]) 0 [10, 20, 30] () =
      (.ok [[(11, 5), (-1, -99)], [(22, 6), (23, 7)], [(-1, -99), (-1, -99)]], ()) := by
  rfl

end Implicit
