import Verif.Spec.Csr
import Verif.Lemmas.ALS
import Verif.Lemmas.Transpose
import Verif.Lemmas.Queries
import Verif.Lemmas.PartialFit
/-!
# Lemmas about the native loops on CSR arrays
-/

set_option linter.unusedSectionVars false

namespace Implicit

open Spec

variable {R : Type} [LinearOrder R] [Field R] {f : Nat}

/-! ## `mapM` with undefined behaviour -/

/-- If every call returns, or fails with the one error `e`, so does the loop. -/
theorem mapM_error_iff {α β ε : Type} {g : α → Except ε β} {e : ε} {l : List α}
    (h : ∀ a ∈ l, ∀ e', g a = .error e' → e' = e) :
    l.mapM g = .error e ↔ ∃ a ∈ l, g a = .error e := by
  induction l with
  | nil => simp [List.mapM_nil, pure, Except.pure]
  | cons a l ih =>
    have ih := ih fun b hb => h b (by simp [hb])
    rw [List.mapM_cons]
    cases hg : g a with
    | error e' =>
      obtain rfl := h a (by simp) e' hg
      simp [bind, Except.bind, hg]
    | ok b =>
      simp only [bind, Except.bind, List.mem_cons, exists_eq_or_imp, hg]
      rw [← ih]
      cases hl : l.mapM g with
      | error e' => simp
      | ok bs => simp [pure, Except.pure]

/-- A loop all of whose calls avoid the error `e` avoids it. -/
theorem mapM_ne_error {α β ε : Type} {g : α → Except ε β} {e : ε} {l : List α}
    (h : ∀ a ∈ l, g a ≠ .error e) : l.mapM g ≠ .error e := by
  induction l with
  | nil => simp [List.mapM_nil, pure, Except.pure]
  | cons a l ih =>
    have ih := ih fun b hb => h b (by simp [hb])
    have ha := h a (by simp)
    rw [List.mapM_cons]
    cases hg : g a with
    | error e' =>
      rw [hg] at ha
      simpa [bind, Except.bind] using ha
    | ok b =>
      cases hl : l.mapM g with
      | error e' =>
        rw [hl] at ih
        simpa [bind, Except.bind, hl] using ih
      | ok bs => simp [bind, Except.bind, pure, Except.pure, hl]

theorem mapM_congr' {α β ε : Type} {g g' : α → Except ε β} : ∀ {l : List α},
    (∀ a ∈ l, g a = g' a) → l.mapM g = l.mapM g'
  | [], _ => rfl
  | a :: l, h => by
    rw [List.mapM_cons, List.mapM_cons, h a (by simp), mapM_congr' fun b hb => h b (by simp [hb])]

theorem mapM_length' {α β ε : Type} {g : α → Except ε β} : ∀ {l : List α} {r : List β},
    l.mapM g = .ok r → r.length = l.length
  | [], r, h => by
    simp only [List.mapM_nil, pure, Except.pure, Except.ok.injEq] at h
    subst h; rfl
  | a :: l, r, h => by
    rw [List.mapM_cons] at h
    cases hg : g a with
    | error e => rw [hg] at h; cases h
    | ok b =>
      cases hl : l.mapM g with
      | error e => rw [hg] at h; simp [bind, Except.bind, hl] at h
      | ok bs =>
        rw [hg] at h
        simp only [bind, Except.bind, pure, Except.pure, hl, Except.ok.injEq] at h
        subst h
        simp [mapM_length' hl]

/-- A loop over a window of an array, one element at a time. -/
theorem mapM_range' {α ε : Type} {g : Nat → Except ε α} : ∀ (r : List α) (a : Nat),
    (∀ (k : Nat) (x : α), r[k]? = some x → g (a + k) = .ok x) →
    (List.range' a r.length).mapM g = .ok r
  | [], _, _ => rfl
  | x :: r, a, h => by
    have h0 := h 0 x rfl
    have ih := mapM_range' r (a + 1) fun k y hy => by
      have := h (k + 1) y (by simpa using hy)
      rwa [Nat.add_right_comm, Nat.add_assoc]
    rw [List.length_cons, List.range'_succ, List.mapM_cons]
    simp only [Nat.add_zero] at h0
    simp only [h0, ih, bind, Except.bind, pure, Except.pure]

/-! ## Reading rows -/

theorem window_getElem? {α : Type} (C : List (List α)) (u : Nat) (r : List α) (h : C[u]? = some r)
    (k : Nat) (x : α) (hk : r[k]? = some x) : C.flatten[(C.take u).flatten.length + k]? = some x := by
  obtain ⟨hu, hr⟩ := List.getElem?_eq_some_iff.mp h
  have hk' := (List.getElem?_eq_some_iff.mp hk).1
  have hsplit : C = C.take u ++ r :: C.drop (u + 1) := by
    rw [← hr, List.cons_getElem_drop_succ, List.take_append_drop]
  have hfl : C.flatten = (C.take u).flatten ++ (r ++ (C.drop (u + 1)).flatten) := by
    conv_lhs => rw [hsplit]
    simp
  rw [hfl, List.getElem?_append_right (by omega), Nat.add_sub_cancel_left,
    List.getElem?_append_left hk', hk]

theorem csrReadRow_eq {M : SparseArrays R} {C : SpRows R} (h : Represents M C) (u : Nat) :
    csrReadRow M u = match C[u]? with
      | some row => .ok row
      | none => .error .undefinedBehaviour := by
  cases hr : C[u]? with
  | none =>
    have hu : C.length ≤ u := List.getElem?_eq_none_iff.mp hr
    have : M.indptr[u + 1]? = none :=
      List.getElem?_eq_none_iff.mpr (by have := h.pointers; have := h.rows; omega)
    unfold csrReadRow
    rw [this]
    cases M.indptr[u]? <;> rfl
  | some row =>
    have hu : u < C.length := (List.getElem?_eq_some_iff.mp hr).1
    have h1 := h.pointer u (by have := h.rows; omega)
    have h2 := h.pointer (u + 1) (by have := h.rows; omega)
    have h3 : (C.take (u + 1)).flatten.length = (C.take u).flatten.length + row.length := by
      rw [List.take_add_one, hr]; simp
    unfold csrReadRow
    rw [h1, h2, h3]
    dsimp only
    rw [Nat.add_sub_cancel_left]
    refine mapM_range' row _ fun k e he => ?_
    have hw := window_getElem? C u row hr k e he
    unfold csrEntry
    rw [h.indices, h.data, List.getElem?_map, List.getElem?_map, hw]
    rfl

/-- Arrays that pass `check_format` are those of some list of rows. -/
theorem exists_represents {M : SparseArrays R} (h : WellFormed M) : ∃ C, Represents M C := by
  let P := M.indices.zip M.data
  let ptr := fun u : Nat => M.indptr[u]?.getD 0
  let C : SpRows R := (List.range M.rows).map fun u => (P.drop (ptr u)).take (ptr (u + 1) - ptr u)
  have hptr : ∀ u, u ≤ M.rows → M.indptr[u]? = some (ptr u) := by
    intro u hu
    have : u < M.indptr.length := by have := h.pointers; omega
    simp [ptr, this]
  have hmono : ∀ u, u < M.rows → ptr u ≤ ptr (u + 1) := fun u hu =>
    h.monotone u _ _ (hptr u (by omega)) (hptr (u + 1) (by omega))
  have hmono' : ∀ d u, u + d ≤ M.rows → ptr u ≤ ptr (u + d) := by
    intro d
    induction d with
    | zero => intro u _; exact le_rfl
    | succ d ih => intro u hu; exact (ih u (by omega)).trans (hmono (u + d) (by omega))
  have hlast : ptr M.rows = M.indices.length := by
    have := hptr M.rows le_rfl
    rw [h.last] at this
    exact (Option.some.inj this).symm
  have hP : P.length = M.indices.length := by simp [P, h.values]
  have hzero : ptr 0 = 0 := by simp [ptr, h.first]
  have hbound : ∀ u, u ≤ M.rows → ptr u ≤ P.length := by
    intro u hu
    rw [hP, ← hlast]
    have := hmono' (M.rows - u) u (by omega)
    rwa [Nat.add_sub_cancel' hu] at this
  have hflat : ∀ n, n ≤ M.rows → (C.take n).flatten = P.take (ptr n) := by
    intro n
    induction n with
    | zero => intro _; simp [hzero]
    | succ n ih =>
      intro hn
      have hC : C[n]? = some ((P.drop (ptr n)).take (ptr (n + 1) - ptr n)) := by
        simp only [C, List.getElem?_map]
        rw [List.getElem?_range (by omega)]
        rfl
      rw [List.take_add_one, hC, List.flatten_append, ih (by omega)]
      have : ptr (n + 1) = ptr n + (ptr (n + 1) - ptr n) := by
        have := hmono n (by omega); omega
      conv_rhs => rw [this, List.take_add]
      simp
  have hlen : C.length = M.rows := by simp [C]
  have hall : C.flatten = P := by
    have := hflat M.rows le_rfl
    rwa [hlast, ← hP, List.take_length, ← hlen, List.take_length] at this
  refine ⟨C, hlen, h.pointers, ?_, ?_, ?_, ?_⟩
  · intro u hu
    rw [hflat u hu, List.length_take, Nat.min_eq_left (hbound u hu)]
    exact hptr u hu
  · rw [hall]
    simp [P, List.map_fst_zip, h.values]
  · rw [hall]
    simp [P, List.map_snd_zip, h.values]
  · intro row hrow e he
    have : e ∈ P := hall ▸ List.mem_flatten.mpr ⟨row, hrow, he⟩
    exact h.columns _ (List.of_mem_zip this).1

/-- The rows of a matrix give arrays that pass `check_format`. -/
theorem represents_wellFormed {M : SparseArrays R} {C : SpRows R} (h : Represents M C) : WellFormed M where
  pointers := h.pointers
  first := by simpa using h.pointer 0 (by omega)
  monotone := by
    intro u a b ha hb
    have hu : u + 1 < M.indptr.length := (List.getElem?_eq_some_iff.mp hb).1
    have hp := h.pointers
    rw [h.pointer u (by omega)] at ha
    rw [h.pointer (u + 1) (by omega)] at hb
    cases ha; cases hb
    rw [List.take_add_one, List.flatten_append, List.length_append]
    omega
  last := by
    rw [h.pointer M.rows le_rfl, ← h.rows, List.take_length, h.indices, List.length_map]
  values := by rw [h.data, h.indices, List.length_map, List.length_map]
  columns := by
    intro i hi
    rw [h.indices] at hi
    obtain ⟨e, he, rfl⟩ := List.mem_map.mp hi
    obtain ⟨row, hrow, her⟩ := List.mem_flatten.mp he
    exact h.columns row hrow e her

/-! ## Rows -/

theorem rowEntries_error_iff {err : Err} {Y : List (Vec f R)} {row : List (Nat × R)} :
    rowEntries err Y row = .error err ↔ ∃ e ∈ row, Y.length ≤ e.1 := by
  constructor
  · intro h
    by_contra hn
    push Not at hn
    rw [rowEntries_eq hn] at h
    cases h
  · rintro ⟨e, he, hle⟩
    induction row with
    | nil => simp at he
    | cons e' row ih =>
      obtain ⟨i, c⟩ := e'
      unfold rowEntries
      cases hy : Y[i]? with
      | none => rfl
      | some y =>
        have hne : e ≠ (i, c) := by
          rintro rfl
          have := (List.getElem?_eq_some_iff.mp hy).1
          simp at hle; omega
        have hmem : e ∈ row := (List.mem_cons.mp he).resolve_left hne
        simp only [ih hmem, bind, Except.bind]

theorem rowEntries_error {err e' : Err} {Y : List (Vec f R)} {row : List (Nat × R)}
    (h : rowEntries err Y row = .error e') : e' = err := by
  have : ∃ e ∈ row, Y.length ≤ e.1 := by
    by_contra hn
    push Not at hn
    rw [rowEntries_eq hn] at h
    cases h
  rw [rowEntries_error_iff.mpr this] at h
  cases h; rfl

theorem cgRow_error_iff (G : Mat f R) (tol : R) (steps : Nat) (Y : List (Vec f R))
    (row : List (Nat × R)) (x : Vec f R) :
    cgRow G tol steps Y row x = .error .undefinedBehaviour ↔ ∃ e ∈ row, Y.length ≤ e.1 := by
  rw [← rowEntries_error_iff (err := .undefinedBehaviour)]
  unfold cgRow
  by_cases hr : row = []
  · subst hr
    simp [rowEntries]
  · rw [if_neg (by simpa using hr)]
    cases rowEntries Err.undefinedBehaviour Y row <;> simp [bind, Except.bind, pure, Except.pure]

theorem cgRow_error {G : Mat f R} {tol : R} {steps : Nat} {Y : List (Vec f R)}
    {row : List (Nat × R)} {x : Vec f R} {e : Err} (h : cgRow G tol steps Y row x = .error e) :
    e = .undefinedBehaviour := by
  unfold cgRow at h
  split at h
  · cases h
  · cases hr : rowEntries Err.undefinedBehaviour Y row with
    | error e' =>
      rw [hr] at h
      simp only [bind, Except.bind] at h
      cases h
      exact rowEntries_error hr
    | ok es => rw [hr] at h; cases h

theorem leastSquaresRow_safe (S : Solver f R) (G : Mat f R) {Y : List (Vec f R)} (reg : R)
    {row : List (Nat × R)} (h : ∀ e ∈ row, e.1 < Y.length) :
    leastSquaresRow S G Y reg row ≠ .error .undefinedBehaviour := by
  unfold leastSquaresRow
  split
  · simp
  · rw [rowEntries_eq h]
    simp only [bind, Except.bind]
    split <;> simp [pure, Except.pure, throw, throwThe, MonadExceptOf.throw]

theorem leastSquaresRow_unsafe (S : Solver f R) (G : Mat f R) {Y : List (Vec f R)} (reg : R)
    {row : List (Nat × R)} (h : ∃ e ∈ row, Y.length ≤ e.1) :
    leastSquaresRow S G Y reg row = .error .undefinedBehaviour := by
  unfold leastSquaresRow
  have hne : row ≠ [] := by rintro rfl; simp at h
  rw [if_neg (by simpa using hne), rowEntries_error_iff.mpr h]
  rfl

/-! ## Sweeps -/

theorem leastSquaresNative_safe (S : Solver f R) (G : Mat f R) {C : SpRows R} {users : Nat}
    {Y : List (Vec f R)} (reg : R) (hu : users ≤ C.length) (hC : ColumnsBelow Y.length C) :
    leastSquaresNative S G C users Y reg ≠ .error .undefinedBehaviour := by
  refine mapM_ne_error fun u hu' => ?_
  have hlt : u < C.length := by have := List.mem_range.mp hu'; omega
  rw [List.getElem?_eq_getElem hlt]
  exact leastSquaresRow_safe S G reg (hC _ (List.getElem_mem hlt))

theorem leastSquaresNative_length {S : Solver f R} {G : Mat f R} {C : SpRows R} {users : Nat}
    {Y : List (Vec f R)} {reg : R} {X : List (Vec f R)}
    (h : leastSquaresNative S G C users Y reg = .ok X) : X.length = users := by
  simpa using mapM_length' h

/-- Each of the four solvers avoids undefined behaviour on arguments of matching sizes. -/
theorem alsSolver_safe (S : Solver f R) (tol : R) (p : ALSParams R) {C : SpRows R}
    {X Y : List (Vec f R)} (reg : R) (hu : X.length ≤ C.length) (hC : ColumnsBelow Y.length C) :
    alsSolver S tol p C X Y reg ≠ .error .undefinedBehaviour := by
  have hget : ∀ xu ∈ X.zipIdx, ∃ row, C[xu.2]? = some row ∧ ∀ e ∈ row, e.1 < Y.length := by
    intro xu hx
    obtain ⟨k, hk, rfl⟩ := List.getElem_of_mem hx
    have hk' : k < C.length := by simp at hk; omega
    simp only [List.getElem_zipIdx, Nat.zero_add]
    exact ⟨_, List.getElem?_eq_getElem hk', hC _ (List.getElem_mem hk')⟩
  unfold alsSolver
  split
  · split
    · refine mapM_ne_error fun xu hx => ?_
      obtain ⟨row, hrow, hlt⟩ := hget xu hx
      rw [hrow]
      intro hc
      obtain ⟨e, he, hle⟩ := (cgRow_error_iff _ _ _ _ _ _).mp hc
      exact absurd (hlt e he) (by omega)
    · refine mapM_ne_error fun xu hx => ?_
      obtain ⟨row, hrow, hlt⟩ := hget xu hx
      rw [hrow]
      simp [rowEntries_eq hlt, bind, Except.bind, pure, Except.pure]
  · split
    · exact leastSquaresNative_safe S _ reg hu hC
    · refine mapM_ne_error fun u hu' => ?_
      have hlt : u < C.length := by have := List.mem_range.mp hu'; omega
      rw [List.getElem?_eq_getElem hlt]
      have := rowEntries_eq (err := .indexError) (hC _ (List.getElem_mem hlt))
      dsimp only
      unfold leastSquaresPyRow
      rw [this]
      simp only [bind, Except.bind]
      split <;> simp [pure, Except.pure, throw, throwThe, MonadExceptOf.throw]

theorem alsSolver_length {S : Solver f R} {tol : R} {p : ALSParams R} {C : SpRows R}
    {X Y X' : List (Vec f R)} {reg : R} (h : alsSolver S tol p C X Y reg = .ok X') :
    X'.length = X.length := by
  unfold alsSolver at h
  split at h
  · split at h <;> simpa using mapM_length' h
  · split at h
    · exact leastSquaresNative_length h
    · simpa using mapM_length' h

theorem applyAlpha_rows (alpha : R) (C : SpRows R) : (applyAlpha alpha C).length = C.length := by
  unfold applyAlpha scaleRows
  split <;> simp

theorem applyAlpha_below {alpha : R} {C : SpRows R} {n : Nat} (h : ColumnsBelow n C) :
    ColumnsBelow n (applyAlpha alpha C) := by
  unfold applyAlpha scaleRows
  split
  · intro row hrow e he
    obtain ⟨r, hr, rfl⟩ := List.mem_map.mp hrow
    obtain ⟨e', he', rfl⟩ := List.mem_map.mp he
    exact h r hr e' he'
  · exact h

theorem applyAlpha_get? (alpha : R) (C : SpRows R) (u : Nat) :
    ((applyAlpha alpha C)[u]?).map (fun r => r.map Prod.fst) = C[u]?.map fun r => r.map Prod.fst := by
  unfold applyAlpha scaleRows
  split
  · rw [List.getElem?_map]
    cases C[u]? <;> simp
  · rfl

theorem transpose_below (cols : Nat) (C : SpRows R) : ColumnsBelow C.length (transposeRows cols C) := by
  intro col hcol e he
  obtain ⟨i, hi, rfl⟩ := List.getElem_of_mem hcol
  obtain ⟨row, hrow, _⟩ := (mem_transpose (List.getElem?_eq_getElem hi) (u := e.1) (c := e.2)).mp he
  exact (List.getElem?_eq_some_iff.mp hrow).1

/-- One iteration on data of the right shape is safe and keeps the sizes. -/
theorem alsTrain_safe (env : Env f R) {u i : Nat} {C : SpRows R} (hu : C.length = u)
    (hC : ColumnsBelow i C) (n : Nat) (m : Factors f R) (hm : m.user.length = u)
    (hi : m.item.length = i) :
    alsTrain env i C n m ≠ .error .undefinedBehaviour ∧
      ∀ m', alsTrain env i C n m = .ok m' → m'.user.length = u ∧ m'.item.length = i := by
  unfold alsTrain alsIteration
  have hb : ColumnsBelow m.item.length (applyAlpha env.p.alpha C) := by
    rw [hi]; exact applyAlpha_below hC
  have hl : (applyAlpha env.p.alpha C).length = u := by rw [applyAlpha_rows, hu]
  have h1 := alsSolver_safe env.S env.tol env.p (X := m.user) env.p.regularization
    (by rw [hl, hm]) hb
  cases hX : alsSolver env.S env.tol env.p (applyAlpha env.p.alpha C) m.user m.item
      env.p.regularization with
  | error e =>
    rw [hX] at h1
    simp only [bind, Except.bind]
    exact ⟨fun h => h1 (by cases h; rfl), fun m' h => by cases h⟩
  | ok X =>
    have hXl := alsSolver_length hX
    have h2 := alsSolver_safe env.S env.tol env.p (C := transposeRows i (applyAlpha env.p.alpha C))
      (X := m.item) (Y := X) env.p.regularization (by rw [transpose_length, hi])
      (by
        have := transpose_below i (applyAlpha env.p.alpha C)
        rwa [hl, ← hm, ← hXl] at this)
    simp only [bind, Except.bind]
    cases hY : alsSolver env.S env.tol env.p (transposeRows i (applyAlpha env.p.alpha C)) m.item X
        env.p.regularization with
    | error e =>
      rw [hY] at h2
      exact ⟨fun h => h2 (by cases h; rfl), fun m' h => by cases h⟩
    | ok Y =>
      have hYl := alsSolver_length hY
      refine ⟨by simp [pure, Except.pure], fun m' h => ?_⟩
      simp only [pure, Except.pure, Except.ok.injEq] at h
      subst h
      exact ⟨by simp [hXl, hm], by simp [hYl, hi]⟩

/-- All the epochs of a fit on data of the right shape are safe and keep the sizes. -/
theorem fitEpochs_safe (env : Env f R) {u i : Nat} {C : SpRows R} (hu : C.length = u)
    (hC : ColumnsBelow i C) (callback : Nat → List (Query f R)) (torn : Factors f R)
    (ht : torn.user.length = u) (ht' : torn.item.length = i) (epochs : Nat) :
    ∀ (k : Nat) (st : MFState f R), Sized u i st →
      (fitEpochs env (alsTrain env i C) callback torn k epochs st).1 ≠ .error .undefinedBehaviour ∧
      Sized u i (fitEpochs env (alsTrain env i C) callback torn k epochs st).2 := by
  induction epochs with
  | zero => intro k st hs; exact ⟨by simp [fitEpochs], hs⟩
  | succ n ih =>
    intro k st hs
    obtain ⟨h1, h2⟩ := alsTrain_safe env hu hC k ⟨st.user, st.item⟩ hs.1 hs.2
    unfold fitEpochs
    cases ht : alsTrain env i C k ⟨st.user, st.item⟩ with
    | error e =>
      rw [ht] at h1
      refine ⟨fun h => h1 ?_, by assumption, ht'⟩
      cases h; rfl
    | ok m =>
      dsimp only
      refine ih (k + 1) _ ?_
      have hsame := runQueries_same env (callback k) { st with user := m.user, item := m.item }
      have hm := h2 m ht
      exact ⟨by rw [hsame.1]; exact hm.1, by rw [hsame.2]; exact hm.2⟩

end Implicit
