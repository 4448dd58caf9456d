import Verif.Lemmas.FloatTraining
import Verif.Lemmas.Recommend
import Verif.Props.C21
/-!
# NaN in a sweep of ALS
-/

set_option linter.unusedSectionVars false

namespace Implicit

open Spec (HasNaN)

variable {V : Type} {f : Nat} {A : FloatOps V}

theorem hasNaN_iff (isNaN : V → Bool) (X : List (Vec f V)) :
    HasNaN isNaN X ↔ ∃ (u : Nat) (x : Vec f V) (j : Fin f), X[u]? = some x ∧ isNaN (x j) = true := by
  constructor
  · rintro ⟨u, h, j, hj⟩
    exact ⟨u, X[u], j, List.getElem?_eq_getElem h, hj⟩
  · rintro ⟨u, x, j, hx, hj⟩
    obtain ⟨h, rfl⟩ := List.getElem?_eq_some_iff.mp hx
    exact ⟨u, h, j, hj⟩

theorem mem_transpose_of {cols : Nat} {C : SpRows V} {u i : Nat} {c : V} {row : List (Nat × V)} (hrow : C[u]? = some row)
    (he : (i, c) ∈ row) (hi : i < cols) :
    ∃ col, (transposeRows cols C)[i]? = some col ∧ (u, c) ∈ col := by
  unfold transposeRows
  refine ⟨_, by rw [List.getElem?_map, List.getElem?_range hi]; rfl, ?_⟩
  refine List.mem_flatMap.mpr ⟨(row, u), ?_, List.mem_map.mpr ⟨(i, c), ?_, rfl⟩⟩
  · exact List.mem_iff_getElem?.mpr ⟨u, by rw [List.getElem?_zipIdx, hrow]; simp⟩
  · exact List.mem_filter.mpr ⟨he, by simp⟩

theorem transpose_mem {cols : Nat} {C : SpRows V} {i : Nat} {col : List (Nat × V)} (h : (transposeRows cols C)[i]? = some col)
    {e : Nat × V} (he : e ∈ col) : ∃ row, C[e.1]? = some row ∧ (i, e.2) ∈ row := by
  unfold transposeRows at h
  rw [List.getElem?_map] at h
  obtain ⟨i', hi', rfl⟩ := Option.map_eq_some_iff.mp h
  have : i' = i := by
    obtain ⟨hlt, hget⟩ := List.getElem?_eq_some_iff.mp hi'
    simpa using hget.symm
  subst this
  obtain ⟨ru, hru, hmem⟩ := List.mem_flatMap.mp he
  obtain ⟨e', he', rfl⟩ := List.mem_map.mp hmem
  obtain ⟨he', hi⟩ := List.mem_filter.mp he'
  obtain ⟨k, hk⟩ := List.mem_iff_getElem?.mp hru
  rw [List.getElem?_zipIdx] at hk
  obtain ⟨row, hrow, heq⟩ := Option.map_eq_some_iff.mp hk
  subst heq
  refine ⟨row, by simpa using hrow, ?_⟩
  have : e'.1 = i' := by simpa using hi
  rw [← this]
  exact he'

theorem transpose_size (cols : Nat) (C : SpRows V) : (transposeRows cols C).length = cols := by simp [transposeRows]

theorem rowEntries_bound {err : Err} {Y : List (Vec f V)} : ∀ {row : List (Nat × V)} {es : List (Vec f V × V)},
    rowEntries err Y row = .ok es → ∀ e ∈ row, e.1 < Y.length
  | [], _, _, e, he => absurd he List.not_mem_nil
  | (i, c) :: row, es, h, e, he => by
    unfold rowEntries at h
    cases hy : Y[i]? with
    | none => rw [hy] at h; cases h
    | some y =>
      rw [hy] at h
      cases hr : rowEntries err Y row with
      | error e' => rw [hr] at h; cases h
      | ok es' =>
        rcases List.mem_cons.mp he with rfl | he
        · exact (List.getElem?_eq_some_iff.mp hy).1
        · exact rowEntries_bound hr e he

theorem rowEntries_total {err : Err} {Y : List (Vec f V)} : ∀ {row : List (Nat × V)},
    (∀ e ∈ row, e.1 < Y.length) → ∃ es, rowEntries err Y row = .ok es
  | [], _ => ⟨[], rfl⟩
  | (i, c) :: row, h => by
    obtain ⟨es, hes⟩ := rowEntries_total (err := err) (Y := Y) fun e he => h e (List.mem_cons_of_mem _ he)
    unfold rowEntries
    rw [List.getElem?_eq_getElem (h (i, c) (by simp))]
    exact ⟨_, by simp only [hes]; rfl⟩

/-- How the solvers treat NaN: if the fixed factors contain NaN, so does every new row with entries; a row without entries has
none; and a sweep that returns has stayed inside its arrays. -/
structure NanSweep (isNaN : V → Bool) (solver : SweepFn f V) : Prop where
  length : ∀ {C X Y reg X'}, solver C X Y reg = .ok X' → X'.length = X.length
  inside : ∀ {C X Y reg X'}, solver C X Y reg = .ok X' → ∀ u, u < X.length → ∃ row, C[u]? = some row ∧ ∀ e ∈ row, e.1 < Y.length
  spreads : ∀ {C X Y reg X'}, solver C X Y reg = .ok X' → HasNaN isNaN Y →
    ∀ (u : Nat) row, C[u]? = some row → row ≠ [] → ∀ x, X'[u]? = some x → ∃ j, isNaN (x j) = true
  clean : ∀ {C X Y reg X'}, solver C X Y reg = .ok X' → ∀ (u : Nat), C[u]? = some [] →
    ∀ x, X'[u]? = some x → ∀ j, isNaN (x j) = false

theorem zipIdx_get {α : Type} {X : List α} {u : Nat} {x : α} (h : X[u]? = some x) : X.zipIdx[u]? = some (x, u) := by
  rw [List.getElem?_zipIdx, h]; simp

/-- The native conjugate gradient solver. -/
theorem leastSquaresCG_nan (hA : A.Strict) (tol : V) {steps : Nat} (hsteps : 0 < steps) :
    NanSweep A.isNaN (A.leastSquaresCG (f := f) tol steps) := by
  have key : ∀ {C : SpRows V} {X Y : List (Vec f V)} {reg : V} {X' : List (Vec f V)},
      A.leastSquaresCG tol steps C X Y reg = .ok X' → X'.length = X.length ∧
      ∀ (u : Nat) x', X'[u]? = some x' → ∃ x row, X[u]? = some x ∧ C[u]? = some row ∧
        A.cgRow (A.regularised (A.gram Y) reg) tol steps Y row x = .ok x' := by
    intro C X Y reg X' h
    obtain ⟨hl, hrows⟩ := mapM_ok_iff h
    rw [List.length_zipIdx] at hl
    refine ⟨hl, fun u x' hx' => ?_⟩
    have hu : u < X.length := by rw [← hl]; exact (List.getElem?_eq_some_iff.mp hx').1
    obtain ⟨y, hy, hy'⟩ := hrows u (X[u], u) (zipIdx_get (List.getElem?_eq_getElem hu))
    rw [hx'] at hy'
    cases hy'
    refine ⟨X[u], ?_⟩
    dsimp only at hy
    cases hc : C[u]? with
    | none => rw [hc] at hy; cases hy
    | some row => rw [hc] at hy; exact ⟨row, List.getElem?_eq_getElem hu, rfl, hy⟩
  refine ⟨fun h => (key h).1, ?_, ?_, ?_⟩
  · intro C X Y reg X' h u hu
    have hu' : u < X'.length := by rw [(key h).1]; exact hu
    obtain ⟨x, row, _, hc, hrow⟩ := (key h).2 u _ (List.getElem?_eq_getElem hu')
    refine ⟨row, hc, ?_⟩
    unfold FloatOps.cgRow at hrow
    split at hrow
    · rename_i he
      rw [List.isEmpty_iff.mp he]
      exact fun e he => absurd he List.not_mem_nil
    · cases hes : rowEntries .undefinedBehaviour Y row with
      | error e => rw [hes] at hrow; cases hrow
      | ok es => exact rowEntries_bound hes
  · intro C X Y reg X' h hY u row hc hne x' hx'
    obtain ⟨x, row', _, hc', hrow⟩ := (key h).2 u x' hx'
    rw [hc] at hc'
    cases hc'
    unfold FloatOps.cgRow at hrow
    rw [if_neg (by simpa using hne)] at hrow
    cases hes : rowEntries .undefinedBehaviour Y row with
    | error e => rw [hes] at hrow; cases hrow
    | ok es =>
      rw [hes] at hrow
      obtain ⟨i, hi, a, ha⟩ := hY
      have hG := regularised_nan hA (gram_nan hA (List.getElem_mem hi) ha a) reg
      refine ⟨a, ?_⟩
      rw [← Except.ok.inj hrow]
      exact (cgSolve_nan hA x ⟨a, Or.inl hG⟩ tol steps es).1 hsteps a
  · intro C X Y reg X' h u hc x' hx' j
    obtain ⟨x, row', _, hc', hrow⟩ := (key h).2 u x' hx'
    rw [hc] at hc'
    cases hc'
    rw [← Except.ok.inj hrow]
    exact hA.zero

/-- What is assumed of LAPACK `posv`: NaN on the diagonal is reported as an error or ends up in the solution. -/
def PosvStrict (isNaN : V → Bool) (posv : Mat f V → Vec f V → Option (Vec f V)) : Prop :=
  ∀ M b, (∃ a, isNaN (M a a) = true) → ∀ x, posv M b = some x → ∃ j, isNaN (x j) = true

/-- The Cholesky solver. -/
theorem leastSquares_nan (hA : A.Strict) {posv : Mat f V → Vec f V → Option (Vec f V)} (hp : PosvStrict A.isNaN posv) :
    NanSweep A.isNaN (A.leastSquares posv) := by
  have key : ∀ {C : SpRows V} {X Y : List (Vec f V)} {reg : V} {X' : List (Vec f V)},
      A.leastSquares posv C X Y reg = .ok X' → X'.length = X.length ∧
      ∀ (u : Nat) x', X'[u]? = some x' → ∃ row, C[u]? = some row ∧
        A.leastSquaresRow posv (A.gram Y) Y reg row = .ok x' := by
    intro C X Y reg X' h
    obtain ⟨hl, hrows⟩ := mapM_ok_iff h
    rw [List.length_range] at hl
    refine ⟨hl, fun u x' hx' => ?_⟩
    have hu : u < X.length := by rw [← hl]; exact (List.getElem?_eq_some_iff.mp hx').1
    obtain ⟨y, hy, hy'⟩ := hrows u u (List.getElem?_range hu)
    rw [hx'] at hy'
    cases hy'
    cases hc : C[u]? with
    | none => rw [hc] at hy; cases hy
    | some row => rw [hc] at hy; exact ⟨row, rfl, hy⟩
  refine ⟨fun h => (key h).1, ?_, ?_, ?_⟩
  · intro C X Y reg X' h u hu
    have hu' : u < X'.length := by rw [(key h).1]; exact hu
    obtain ⟨row, hc, hrow⟩ := (key h).2 u _ (List.getElem?_eq_getElem hu')
    refine ⟨row, hc, ?_⟩
    unfold FloatOps.leastSquaresRow at hrow
    split at hrow
    · rename_i he
      rw [List.isEmpty_iff.mp he]
      exact fun e he => absurd he List.not_mem_nil
    · cases hes : rowEntries .undefinedBehaviour Y row with
      | error e => rw [hes] at hrow; cases hrow
      | ok es => exact rowEntries_bound hes
  · intro C X Y reg X' h hY u row hc hne x' hx'
    obtain ⟨row', hc', hrow⟩ := (key h).2 u x' hx'
    rw [hc] at hc'
    cases hc'
    unfold FloatOps.leastSquaresRow at hrow
    rw [if_neg (by simpa using hne)] at hrow
    cases hes : rowEntries .undefinedBehaviour Y row with
    | error e => rw [hes] at hrow; cases hrow
    | ok es =>
      rw [hes] at hrow
      simp only [bind, Except.bind] at hrow
      obtain ⟨i, hi, a, ha⟩ := hY
      have hG := regularised_nan hA (gram_nan hA (List.getElem_mem hi) ha a) reg
      have hM := accumulate_nan hA es (A.regularised (A.gram Y) reg, fun _ => A.zero) hG
      split at hrow
      · rename_i x hx
        rw [← Except.ok.inj hrow]
        exact hp _ _ ⟨a, hM⟩ x hx
      · cases hrow
  · intro C X Y reg X' h u hc x' hx' j
    obtain ⟨row', hc', hrow⟩ := (key h).2 u x' hx'
    rw [hc] at hc'
    cases hc'
    rw [← Except.ok.inj hrow]
    exact hA.zero

/-- An iteration on data with at least one stored entry in a row of the model keeps a NaN among the item factors. -/
theorem alsIteration_nan {isNaN : V → Bool} {solver : SweepFn f V} (hS : NanSweep isNaN solver) {cols : Nat} {C : SpRows V} {reg : V}
    {m m' : Factors f V} (h : alsIteration solver C (transposeRows cols C) reg m = .ok m')
    (hdata : ∃ (u : Nat) (row : List (Nat × V)), u < m.user.length ∧ C[u]? = some row ∧ row ≠ [])
    (hnan : HasNaN isNaN m.item) : HasNaN isNaN m'.item ∧ m'.user.length = m.user.length := by
  unfold alsIteration at h
  cases hX : solver C m.user m.item reg with
  | error e => rw [hX] at h; cases h
  | ok X =>
    rw [hX] at h
    cases hY : solver (transposeRows cols C) m.item X reg with
    | error e => simp [hY, bind, Except.bind] at h
    | ok Y =>
      have hm : m' = ⟨X, Y⟩ := by simpa [hY, bind, Except.bind, pure, Except.pure, eq_comm] using h
      subst hm
      obtain ⟨u, row, hu, hc, hne⟩ := hdata
      refine ⟨?_, hS.length hX⟩
      have hu' : u < X.length := by rw [hS.length hX]; exact hu
      obtain ⟨j, hj⟩ := hS.spreads hX hnan u row hc hne _ (List.getElem?_eq_getElem hu')
      obtain ⟨e, he⟩ := List.exists_mem_of_ne_nil row hne
      obtain ⟨row', hc', hin⟩ := hS.inside hX u hu
      rw [hc] at hc'
      cases hc'
      have hei : e.1 < m.item.length := hin e he
      obtain ⟨col', hcol', -⟩ := hS.inside hY e.1 hei
      have hcols : e.1 < cols := by
        have := (List.getElem?_eq_some_iff.mp hcol').1
        rwa [transpose_size] at this
      obtain ⟨col, hcol, hmem⟩ := mem_transpose_of hc (c := e.2) he hcols
      have heY : e.1 < Y.length := by rw [hS.length hY]; exact hei
      obtain ⟨k, hk⟩ := hS.spreads hY ⟨u, hu', j, hj⟩ e.1 col hcol (List.ne_nil_of_mem hmem) _ (List.getElem?_eq_getElem heY)
      exact ⟨e.1, heY, k, hk⟩

/-- After an iteration, a NaN among the user factors is accompanied by one among the item factors. -/
theorem alsIteration_item_nan {isNaN : V → Bool} {solver : SweepFn f V} (hS : NanSweep isNaN solver) {cols : Nat} {C : SpRows V}
    {reg : V} {m m' : Factors f V} (h : alsIteration solver C (transposeRows cols C) reg m = .ok m')
    (hnan : HasNaN isNaN m'.user) : HasNaN isNaN m'.item := by
  unfold alsIteration at h
  cases hX : solver C m.user m.item reg with
  | error e => rw [hX] at h; cases h
  | ok X =>
    rw [hX] at h
    cases hY : solver (transposeRows cols C) m.item X reg with
    | error e => simp [hY, bind, Except.bind] at h
    | ok Y =>
      have hm : m' = ⟨X, Y⟩ := by simpa [hY, bind, Except.bind, pure, Except.pure, eq_comm] using h
      subst hm
      obtain ⟨u, hu, j, hj⟩ := hnan
      have hu' : u < m.user.length := by rw [← hS.length hX]; exact hu
      obtain ⟨row, hc, hin⟩ := hS.inside hX u hu'
      have hne : row ≠ [] := by
        rintro rfl
        rw [hS.clean hX u hc _ (List.getElem?_eq_getElem hu) j] at hj
        cases hj
      obtain ⟨e, he⟩ := List.exists_mem_of_ne_nil row hne
      have hei : e.1 < m.item.length := hin e he
      obtain ⟨col', hcol', -⟩ := hS.inside hY e.1 hei
      have hcols : e.1 < cols := by
        have := (List.getElem?_eq_some_iff.mp hcol').1
        rwa [transpose_size] at this
      obtain ⟨col, hcol, hmem⟩ := mem_transpose_of hc (c := e.2) he hcols
      have heY : e.1 < Y.length := by rw [hS.length hY]; exact hei
      obtain ⟨k, hk⟩ := hS.spreads hY ⟨u, hu, j, hj⟩ e.1 col hcol (List.ne_nil_of_mem hmem) _ (List.getElem?_eq_getElem heY)
      exact ⟨e.1, heY, k, hk⟩

end Implicit
