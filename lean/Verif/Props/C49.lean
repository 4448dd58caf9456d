import Verif.Lemmas.Csr
import Verif.Lemmas.GpuMatrix
import Verif.Props.C18
import Verif.Props.C35
import Verif.Props.C38
/-!
# C49 — Native kernels only touch memory inside the given arrays

Exact conditions for the native loops, the histories of operations for which they hold, and the calls the
python layer lets through although they do not.
-/

set_option linter.unusedSectionVars false

namespace Implicit

open Spec

variable {R : Type} [LinearOrder R] [Field R] {f : Nat}

/-! ## The arrays and the rows they stand for -/

/-- The arrays scipy accepts are exactly the arrays of lists of rows with columns in range. -/
theorem C49_wellformed (M : SparseArrays R) : WellFormed M ↔ ∃ C, Represents M C :=
  ⟨exists_represents, fun ⟨_, h⟩ => represents_wellFormed h⟩

/-- Reading row `u` of well-formed arrays gives that row; there is no such row from `M.rows` on, and the
read leaves the arrays. -/
theorem C49_rows (M : SparseArrays R) (C : SpRows R) (h : Represents M C) (u : Nat) :
    (∀ row, C[u]? = some row → csrReadRow M u = .ok row) ∧
    (csrReadRow M u = .error .undefinedBehaviour ↔ M.rows ≤ u) := by
  rw [csrReadRow_eq h]
  constructor
  · intro row hr; rw [hr]
  · cases hr : C[u]? with
    | none =>
      have := List.getElem?_eq_none_iff.mp hr
      rw [h.rows] at this
      simpa using this
    | some row =>
      have := (List.getElem?_eq_some_iff.mp hr).1
      rw [h.rows] at this
      simpa using this

/-- **Refinement.**  On the arrays of a matrix the native loops compute what the models on its rows
compute; all other theorems about those apply to the loops on the arrays. -/
theorem C49_refines (M : SparseArrays R) (C : SpRows R) (h : Represents M C) (S : Solver f R) (G : Mat f R)
    (users : Nat) (tol : R) (steps : Nat) (X Y : List (Vec f R)) (reg : R) :
    nativeLeastSquares S G M users Y reg = leastSquaresNative S G C users Y reg ∧
    nativeCG tol steps M X Y reg = leastSquaresCG tol steps C X Y reg ∧
    nativeLossParts M X Y = X.zipIdx.mapM (lossPart C Y) := by
  refine ⟨mapM_congr' fun u _ => ?_, mapM_congr' fun xu _ => ?_, mapM_congr' fun xu _ => ?_⟩
  · rw [csrReadRow_eq h]
    cases C[u]? <;> rfl
  · rw [csrReadRow_eq h]
    cases C[xu.2]? <;> rfl
  · unfold lossPart
    rw [csrReadRow_eq h]
    cases C[xu.2]? <;> rfl

/-! ## The conditions of the loops -/

theorem mem_zipIdx' {α : Type} {l : List α} {p : α × Nat} : p ∈ l.zipIdx ↔ l[p.2]? = some p.1 := by
  obtain ⟨x, n⟩ := p
  simp [List.mem_zipIdx_iff_getElem?]

/-- When the loop of the conjugate gradient solver leaves the arrays: exactly if there are more rows to
fill than the matrix has, or a row that is used has a column beyond the other factors. -/
theorem C49_cg (M : SparseArrays R) (C : SpRows R) (h : Represents M C) (tol : R) (steps : Nat)
    (X Y : List (Vec f R)) (reg : R) :
    nativeCG tol steps M X Y reg = .error .undefinedBehaviour ↔
      M.rows < X.length ∨ ∃ u row e, u < X.length ∧ C[u]? = some row ∧ e ∈ row ∧ Y.length ≤ e.1 := by
  unfold nativeCG
  rw [mapM_error_iff]
  · constructor
    · rintro ⟨xu, hx, he⟩
      have hu := (List.getElem?_eq_some_iff.mp (mem_zipIdx'.mp hx)).1
      rw [csrReadRow_eq h] at he
      cases hr : C[xu.2]? with
      | none =>
        have := List.getElem?_eq_none_iff.mp hr
        rw [h.rows] at this
        exact Or.inl (by omega)
      | some row =>
        rw [hr] at he
        obtain ⟨e, hm, hle⟩ := (cgRow_error_iff _ _ _ _ _ _).mp he
        exact Or.inr ⟨xu.2, row, e, hu, hr, hm, hle⟩
    · rintro (hlt | ⟨u, row, e, hu, hr, hm, hle⟩)
      · refine ⟨(X[M.rows], M.rows), mem_zipIdx'.mpr (List.getElem?_eq_getElem hlt), ?_⟩
        rw [csrReadRow_eq h, List.getElem?_eq_none_iff.mpr (by rw [h.rows])]
        rfl
      · refine ⟨(X[u], u), mem_zipIdx'.mpr (List.getElem?_eq_getElem hu), ?_⟩
        rw [csrReadRow_eq h, hr]
        exact (cgRow_error_iff _ _ _ _ _ _).mpr ⟨e, hm, hle⟩
  · intro xu _ e' he
    rw [csrReadRow_eq h] at he
    cases hr : C[xu.2]? with
    | none => rw [hr] at he; cases he; rfl
    | some row => rw [hr] at he; exact cgRow_error he

/-- The same for the training loss. -/
theorem C49_loss (M : SparseArrays R) (C : SpRows R) (h : Represents M C) (X Y : List (Vec f R)) :
    nativeLossParts M X Y = .error .undefinedBehaviour ↔
      M.rows < X.length ∨ ∃ u row e, u < X.length ∧ C[u]? = some row ∧ e ∈ row ∧ Y.length ≤ e.1 := by
  have key : ∀ (row : List (Nat × R)) (x : Vec f R),
      ((rowEntries Err.undefinedBehaviour Y row).bind fun es => pure (lossRow (gram Y) es x)) =
        .error .undefinedBehaviour ↔ ∃ e ∈ row, Y.length ≤ e.1 := by
    intro row x
    rw [← rowEntries_error_iff (err := .undefinedBehaviour)]
    cases rowEntries Err.undefinedBehaviour Y row <;> simp [Except.bind, pure, Except.pure]
  unfold nativeLossParts
  rw [mapM_error_iff]
  · constructor
    · rintro ⟨xu, hx, he⟩
      have hu := (List.getElem?_eq_some_iff.mp (mem_zipIdx'.mp hx)).1
      rw [csrReadRow_eq h] at he
      cases hr : C[xu.2]? with
      | none =>
        have := List.getElem?_eq_none_iff.mp hr
        rw [h.rows] at this
        exact Or.inl (by omega)
      | some row =>
        rw [hr] at he
        obtain ⟨e, hm, hle⟩ := (key row xu.1).mp he
        exact Or.inr ⟨xu.2, row, e, hu, hr, hm, hle⟩
    · rintro (hlt | ⟨u, row, e, hu, hr, hm, hle⟩)
      · refine ⟨(X[M.rows], M.rows), mem_zipIdx'.mpr (List.getElem?_eq_getElem hlt), ?_⟩
        rw [csrReadRow_eq h, List.getElem?_eq_none_iff.mpr (by rw [h.rows])]
        rfl
      · refine ⟨(X[u], u), mem_zipIdx'.mpr (List.getElem?_eq_getElem hu), ?_⟩
        rw [csrReadRow_eq h, hr]
        exact (key row _).mpr ⟨e, hm, hle⟩
  · intro xu _ e' he
    rw [csrReadRow_eq h] at he
    cases hr : C[xu.2]? with
    | none => rw [hr] at he; cases he; rfl
    | some row =>
      rw [hr] at he
      cases hre : rowEntries Err.undefinedBehaviour Y row with
      | error e'' =>
        simp only [bind, Except.bind, hre] at he
        cases he
        exact rowEntries_error hre
      | ok es => simp [bind, Except.bind, hre, pure, Except.pure] at he

/-- The exact solver stays inside the arrays if the matrix has enough rows and no column beyond the
factors; with too few rows it cannot return. -/
theorem C49_least_squares (M : SparseArrays R) (C : SpRows R) (h : Represents M C) (S : Solver f R)
    (G : Mat f R) (users : Nat) (Y : List (Vec f R)) (reg : R) :
    (users ≤ M.rows → M.cols ≤ Y.length →
      nativeLeastSquares S G M users Y reg ≠ .error .undefinedBehaviour) ∧
    (M.rows < users → ∀ X, nativeLeastSquares S G M users Y reg ≠ .ok X) := by
  rw [(C49_refines M C h S G users 0 0 [] Y reg).1]
  constructor
  · intro hu hc
    exact leastSquaresNative_safe S G reg (by rw [h.rows]; exact hu)
      fun row hrow e he => lt_of_lt_of_le (h.columns row hrow e he) hc
  · intro hlt X hX
    have h2 := (mapM_ok_iff hX).2 M.rows M.rows (List.getElem?_range hlt)
    rw [List.getElem?_eq_none_iff.mpr (by rw [h.rows])] at h2
    simp at h2

/-- **The GPU solver.**  It leaves the arrays exactly if its checks pass and there are more rows to fill
than the matrix has, or an address in `X` or `Y` does not fit an `int`. -/
theorem C49_gpu (M : SparseArrays R) (C : SpRows R) (h : Represents M C) (tol : R) (steps : Nat)
    (G : Mat f R) (X Y : List (Vec f R)) :
    gpuNativeLeastSquares tol steps G M X Y = .error .undefinedBehaviour ↔
      M.rows ≤ X.length ∧ M.cols ≤ Y.length ∧
      (M.rows < X.length ∨ (∃ u, u < X.length ∧ 2 ^ 31 ≤ u * f) ∨
        ∃ u row e, u < X.length ∧ C[u]? = some row ∧ e ∈ row ∧ 2 ^ 31 ≤ e.1 * f) := by
  unfold gpuNativeLeastSquares
  by_cases h1 : X.length < M.rows
  · rw [if_pos h1]; simp; omega
  by_cases h2 : Y.length < M.cols
  · rw [if_neg h1, if_pos h2]; simp; omega
  rw [if_neg h1, if_neg h2]
  have hmul : ∀ a b : Nat, int32Mul a b = .error .undefinedBehaviour ↔ 2 ^ 31 ≤ a * b := by
    intro a b; unfold int32Mul; split <;> simp <;> omega
  have hmul' : ∀ (a b : Nat) e, int32Mul a b = .error e → e = .undefinedBehaviour := by
    intro a b e he; unfold int32Mul at he; split at he
    · cases he
    · cases he; rfl
  have hmul'' : ∀ a b : Nat, a * b < 2 ^ 31 → int32Mul a b = .ok (a * b) := by
    intro a b hab; unfold int32Mul; rw [if_pos hab]
  -- a row: what fails, and nothing else fails
  have hrow : ∀ u x, u < X.length →
      (gpuNativeRow tol steps G M Y u x = .error .undefinedBehaviour ↔
        (2 ^ 31 ≤ u * f ∨ M.rows ≤ u ∨ ∃ row e, C[u]? = some row ∧ e ∈ row ∧ 2 ^ 31 ≤ e.1 * f)) ∧
      ∀ e, gpuNativeRow tol steps G M Y u x = .error e → e = .undefinedBehaviour := by
    intro u x hu
    unfold gpuNativeRow
    by_cases hu31 : u * f < 2 ^ 31
    · rw [hmul'' u f hu31, csrReadRow_eq h]
      cases hr : C[u]? with
      | none =>
        have := List.getElem?_eq_none_iff.mp hr
        rw [h.rows] at this
        simp only [bind, Except.bind]
        refine ⟨by simp [this], fun e he => by cases he; rfl⟩
      | some row =>
        have hur := (List.getElem?_eq_some_iff.mp hr).1
        rw [h.rows] at hur
        have hcols : ¬ ∃ e ∈ row, Y.length ≤ e.1 := by
          rintro ⟨e, he, hle⟩
          have := h.columns row (List.mem_of_getElem? hr) e he
          omega
        have hm := mapM_error_iff (g := fun e : Nat × R => int32Mul e.1 f) (e := .undefinedBehaviour)
          (l := row) fun a _ e' he => hmul' _ _ _ he
        simp only [bind, Except.bind]
        cases hrm : row.mapM fun e => int32Mul e.1 f with
        | error e' =>
          have he' : e' = .undefinedBehaviour := by
            by_contra hne
            have hno : ¬ ∃ a ∈ row, int32Mul a.1 f = .error .undefinedBehaviour := by
              rw [← hm, hrm]; simpa using hne
            push Not at hno
            obtain ⟨bs, hbs⟩ := mapM_total (g := fun e : Nat × R => int32Mul e.1 f) (l := row)
              fun a ha => by
                by_cases hab : a.1 * f < 2 ^ 31
                · exact ⟨_, hmul'' _ _ hab⟩
                · exact absurd ((hmul _ _).mpr (by omega)) (hno a ha)
            rw [hbs] at hrm; cases hrm
          subst he'
          refine ⟨⟨fun _ => ?_, fun _ => rfl⟩, fun e he => by cases he; rfl⟩
          obtain ⟨a, ha, hae⟩ := hm.mp hrm
          exact Or.inr (Or.inr ⟨row, a, rfl, ha, (hmul _ _).mp hae⟩)
        | ok bs =>
          refine ⟨⟨fun hc => absurd ((cgRow_error_iff _ _ _ _ _ _).mp hc) hcols, ?_⟩,
            fun e he => cgRow_error he⟩
          rintro (h31 | hle | ⟨row', e, hrow', he, hle⟩)
          · omega
          · omega
          · cases hrow'
            have := hm.mpr ⟨e, he, (hmul _ _).mpr hle⟩
            rw [hrm] at this; cases this
    · rw [(hmul u f).mpr (by omega)]
      simp only [bind, Except.bind]
      refine ⟨by simp; omega, fun e he => by cases he; rfl⟩
  rw [mapM_error_iff]
  · constructor
    · rintro ⟨xu, hx, he⟩
      have hu := (List.getElem?_eq_some_iff.mp (mem_zipIdx'.mp hx)).1
      refine ⟨by omega, by omega, ?_⟩
      rcases (hrow xu.2 xu.1 hu).1.mp he with h3 | h3 | ⟨row, e, hr, hm, hle⟩
      · exact Or.inr (Or.inl ⟨_, hu, h3⟩)
      · exact Or.inl (by omega)
      · exact Or.inr (Or.inr ⟨_, row, e, hu, hr, hm, hle⟩)
    · rintro ⟨_, _, hlt | ⟨u, hu, h3⟩ | ⟨u, row, e, hu, hr, hm, hle⟩⟩
      · exact ⟨(X[M.rows], M.rows), mem_zipIdx'.mpr (List.getElem?_eq_getElem hlt),
          (hrow _ _ hlt).1.mpr (Or.inr (Or.inl le_rfl))⟩
      · exact ⟨(X[u], u), mem_zipIdx'.mpr (List.getElem?_eq_getElem hu),
          (hrow _ _ hu).1.mpr (Or.inl h3)⟩
      · exact ⟨(X[u], u), mem_zipIdx'.mpr (List.getElem?_eq_getElem hu),
          (hrow _ _ hu).1.mpr (Or.inr (Or.inr ⟨row, e, hr, hm, hle⟩))⟩
  · intro xu hx e he
    exact (hrow xu.2 xu.1 (List.getElem?_eq_some_iff.mp (mem_zipIdx'.mp hx)).1).2 e he

/-- The arrays of the 2 x 3 matrix with entries (0,1), (0,2), (1,0). -/
def exampleCsr : SparseArrays Rat := ⟨2, 3, [0, 2, 3], [1, 2, 0], [5, 7, 2]⟩

example : Represents exampleCsr [[(1, 5), (2, 7)], [(0, 2)]] where
  rows := rfl
  pointers := rfl
  pointer := by
    intro u hu
    have : u = 0 ∨ u = 1 ∨ u = 2 := by have : u ≤ 2 := hu; omega
    rcases this with rfl | rfl | rfl <;> rfl
  indices := rfl
  data := rfl
  columns := by decide

example : csrReadRow exampleCsr 0 = .ok [(1, 5), (2, 7)] ∧ csrReadRow exampleCsr 1 = .ok [(0, 2)] ∧
    csrReadRow exampleCsr 2 = .error .undefinedBehaviour := by decide +kernel

example : (nativeCG (1 / 10 ^ 20) 3 exampleCsr [![1], ![1]] [![1], ![2], ![0]] 1).isOkB = true ∧
    (gpuNativeLeastSquares (1 / 10 ^ 20) 3 (fun _ _ => 6) exampleCsr [![1], ![1]]
      [![1], ![2], ![0]]).isOkB = true := by decide +kernel

/-! ## Histories -/

/-- A single operation with arguments of the model's shape stays inside the arrays and keeps the shape. -/
theorem belongs_step (env : Env f R) (u i : Nat) (st : MFState f R) (hs : Sized u i st) (op : Op f R)
    (hop : Belongs env u i op) :
    kernelOutcome env st op ≠ .error .undefinedBehaviour ∧ Sized u i (runOp env st op) := by
  have hrU : ∀ (ids : Ids) (rows : SpRows R), ColumnsBelow i rows →
      (recalculateUser env st ids rows).1 ≠ .error .undefinedBehaviour := by
    intro ids rows hrows
    unfold recalculateUser
    split
    · simp
    · rename_i hn
      have hsame := getYtY_same st
      refine leastSquaresNative_safe _ _ _ ?_ ?_
      · rw [applyAlpha_rows]; omega
      · rw [hsame.2, hs.2]; exact applyAlpha_below hrows
  have hrI : ∀ (ids : Ids) (rows : SpRows R), ids.count ≤ rows.length → ColumnsBelow u rows →
      (recalculateItem env st ids rows).1 ≠ .error .undefinedBehaviour := by
    intro ids rows hn hrows
    unfold recalculateItem
    have hsame := getXtX_same st
    refine leastSquaresNative_safe _ _ _ ?_ ?_
    · rw [applyAlpha_rows]; omega
    · rw [hsame.1, hs.1]; exact applyAlpha_below hrows
  have sU : ∀ (ids : Ids) (rows : SpRows R), Sized u i (recalculateUser env st ids rows).2 := by
    intro ids rows
    have := recalculateUser_same env st ids rows
    exact ⟨by rw [this.1]; exact hs.1, by rw [this.2]; exact hs.2⟩
  have sI : ∀ (ids : Ids) (rows : SpRows R), Sized u i (recalculateItem env st ids rows).2 := by
    intro ids rows
    have := recalculateItem_same env st ids rows
    exact ⟨by rw [this.1]; exact hs.1, by rw [this.2]; exact hs.2⟩
  have hmax : ∀ (ids : List Nat) (m n : Nat), (∀ x ∈ ids, x < n) → pyMax ids = .ok m → m < n := by
    intro ids m n hx hm
    exact hx m (pyMax_spec hm).1
  have hgrow : ∀ (m n : Nat) (l : List (Vec f R)) (ps : List (Nat × Vec f R)), l.length = n → m < n →
      (assignRows (growTo m l) ps).length = n := by
    intro m n l ps hl hm
    rw [assignRows_length, growTo_length]; omega
  cases hop with
  | fit invalidate C callback torn epochs hC hb ht ht' =>
    unfold kernelOutcome runOp fitModel
    dsimp only
    refine fitEpochs_safe env hC hb callback torn ht ht' epochs 0 _ ?_
    cases invalidate <;> exact hs
  | partialFitUsers ids rows hx hb =>
    have h1 := hrU (.many ids) rows hb
    have h2 := sU (.many ids) rows
    unfold kernelOutcome runOp partialFitUsers
    dsimp only
    split
    · exact ⟨by simp, hs⟩
    · generalize recalculateUser env st (.many ids) rows = r at h1 h2
      obtain ⟨r1, r2⟩ := r
      cases r1 with
      | error e => exact ⟨fun hc => h1 (by cases hc; rfl), h2⟩
      | ok xs =>
        dsimp only
        cases hm : pyMax ids with
        | error e =>
          dsimp only
          refine ⟨?_, h2⟩
          cases ids with
          | nil => cases hm; simp
          | cons a l => cases hm
        | ok m =>
          dsimp only
          exact ⟨by simp, hgrow m u _ _ h2.1 (hmax ids m u hx hm), h2.2⟩
  | partialFitItems ids rows hx hb =>
    unfold kernelOutcome runOp partialFitItems
    dsimp only
    split
    · exact ⟨by simp, hs⟩
    · rename_i hlen
      have h1 := hrI (.many ids) rows (by simp only [Ids.count]; omega) hb
      have h2 := sI (.many ids) rows
      generalize recalculateItem env st (.many ids) rows = r at h1 h2
      obtain ⟨r1, r2⟩ := r
      cases r1 with
      | error e => exact ⟨fun hc => h1 (by cases hc; rfl), h2⟩
      | ok xs =>
        dsimp only
        cases hm : pyMax ids with
        | error e =>
          dsimp only
          refine ⟨?_, h2⟩
          cases ids with
          | nil => cases hm; simp
          | cons a l => cases hm
        | ok m =>
          dsimp only
          exact ⟨by simp, h2.1, hgrow m i _ _ h2.2 (hmax ids m i hx hm)⟩
  | recalculateUser ids rows hb =>
    have h1 := hrU ids rows hb
    refine ⟨?_, sU ids rows⟩
    unfold kernelOutcome
    dsimp only
    cases hr : (recalculateUser env st ids rows).1 with
    | error e => rw [hr] at h1; simpa [Except.map] using h1
    | ok xs => simp [Except.map]
  | recalculateItem ids rows hn hb =>
    have h1 := hrI ids rows hn hb
    refine ⟨?_, sI ids rows⟩
    unfold kernelOutcome
    dsimp only
    cases hr : (recalculateItem env st ids rows).1 with
    | error e => rw [hr] at h1; simpa [Except.map] using h1
    | ok xs => simp [Except.map]
  | query q h1 h2 =>
    have hsame := runQuery_same env st q
    refine ⟨?_, by unfold runOp; exact ⟨by rw [hsame.1]; exact hs.1, by rw [hsame.2]; exact hs.2⟩⟩
    unfold kernelOutcome
    cases q with
    | recalculateUser ids rows => exact absurd rfl (h1 ids rows)
    | recalculateItem ids rows => exact absurd rfl (h2 ids rows)
    | _ => simp

/-- **Histories of a CPU model.**  As long as every operation is given data of the model's shape -- any
number of fits (with callbacks, with or without errors), partial fits, recalculations and queries, with
any solver -- no native loop ever leaves its arrays.

Partial: the python layer does not enforce the shapes, see the `_violated` theorems. -/
theorem C49_history_partial (env : Env f R) (u i : Nat) (init : MFState f R) (hi : Sized u i init)
    (ops : List (Op f R)) (hops : ∀ op ∈ ops, Belongs env u i op) :
    Sized u i (runOps env init ops) ∧
    ∀ (before after : List (Op f R)) (op : Op f R), ops = before ++ op :: after →
      kernelOutcome env (runOps env init before) op ≠ .error .undefinedBehaviour := by
  have hsize : ∀ (l : List (Op f R)) (st : MFState f R), Sized u i st →
      (∀ op ∈ l, Belongs env u i op) → Sized u i (runOps env st l) := by
    intro l
    induction l with
    | nil => intro st hs _; exact hs
    | cons op l ih =>
      intro st hs h
      exact ih (runOp env st op) (belongs_step env u i st hs op (h op (by simp))).2
        fun o ho => h o (by simp [ho])
  refine ⟨hsize ops init hi hops, ?_⟩
  rintro before after op rfl
  exact (belongs_step env u i _ (hsize before init hi fun o ho => hops o (by simp [ho])) op
    (hops op (by simp))).1

/-- Training, folding in and recalculating on a model with two users and three items. -/
example :
    let C : SpRows Rat := [[(1, 5), (2, 7)], [(0, 2)]]
    let ops : List (Op 1 Rat) := [.fit true (alsTrain exampleEnv 3 C) (fun _ => []) ⟨[![0], ![0]],
        [![0], ![0], ![0]]⟩ 2, .partialFitUsers [1] [[(2, 3)]], .query (.recalculateItem (.one 0) [[(1, 1)]])]
    (∀ op ∈ ops, Belongs exampleEnv 2 3 op) ∧ Sized 2 3 (freshState (R := Rat) ⟨[![1], ![1]],
      [![1], ![2], ![0]]⟩) := by
  intro C ops
  refine ⟨?_, rfl, rfl⟩
  intro op hop
  simp only [ops, List.mem_cons, List.not_mem_nil, or_false] at hop
  rcases hop with rfl | rfl | rfl
  · exact .fit _ _ _ _ _ rfl (by unfold ColumnsBelow; decide) rfl rfl
  · exact .partialFitUsers _ _ (by decide) (by unfold ColumnsBelow; decide)
  · exact .recalculateItem _ _ (by decide) (by unfold ColumnsBelow; decide)

/-! ## Calls the python layer lets through -/

/-- **Fitting again on fewer users.**  The factors of the first fit stay, so the first iteration reads
beyond `indptr`: for every data set with fewer rows than the model has users. -/
theorem C49_refit_violated (env : Env f R) (hcg : env.p.useCg = true) (hn : env.p.useNative = true)
    (st : MFState f R) (cols : Nat) (C : SpRows R) (hlt : C.length < st.user.length)
    (invalidate : Bool) (callback : Nat → List (Query f R)) (torn : Factors f R) (epochs : Nat) :
    kernelOutcome env st (.fit invalidate (alsTrain env cols C) callback torn (epochs + 1)) =
      .error .undefinedBehaviour := by
  have hsolve : ∀ Y : List (Vec f R), leastSquaresCG env.tol env.p.cgSteps (applyAlpha env.p.alpha C)
      st.user Y env.p.regularization = .error .undefinedBehaviour := by
    intro Y
    unfold leastSquaresCG
    rw [mapM_error_iff]
    · refine ⟨(st.user[C.length], C.length), mem_zipIdx'.mpr (List.getElem?_eq_getElem hlt), ?_⟩
      dsimp only
      rw [List.getElem?_eq_none_iff.mpr (by rw [applyAlpha_rows])]
    · intro xu _ e he
      cases hr : (applyAlpha env.p.alpha C)[xu.2]? with
      | none => rw [hr] at he; cases he; rfl
      | some row => rw [hr] at he; exact cgRow_error he
  have htrain : ∀ k (Y : List (Vec f R)), alsTrain env cols C k ⟨st.user, Y⟩ =
      .error .undefinedBehaviour := by
    intro k Y
    unfold alsTrain alsIteration alsSolver
    simp only [hcg, hn, if_true, hsolve, bind, Except.bind]
  unfold kernelOutcome fitModel
  dsimp only
  cases invalidate <;> simp [fitEpochs, htrain]

/-- **Fitting again on more items**: a stored column beyond the items of the first fit is read from beyond
the item factors. -/
theorem C49_refit_items_violated (env : Env f R) (hcg : env.p.useCg = true)
    (hn : env.p.useNative = true) (st : MFState f R) (cols : Nat) (C : SpRows R) (u : Nat)
    (row : List (Nat × R)) (hrow : C[u]? = some row) (hu : u < st.user.length)
    (hcol : ∃ e ∈ row, st.item.length ≤ e.1)
    (invalidate : Bool) (callback : Nat → List (Query f R)) (torn : Factors f R) (epochs : Nat) :
    kernelOutcome env st (.fit invalidate (alsTrain env cols C) callback torn (epochs + 1)) =
      .error .undefinedBehaviour := by
  have hsolve : leastSquaresCG env.tol env.p.cgSteps (applyAlpha env.p.alpha C)
      st.user st.item env.p.regularization = .error .undefinedBehaviour := by
    unfold leastSquaresCG
    rw [mapM_error_iff]
    · refine ⟨(st.user[u], u), mem_zipIdx'.mpr (List.getElem?_eq_getElem hu), ?_⟩
      have hm := applyAlpha_get? env.p.alpha C u
      rw [hrow] at hm
      cases hr : (applyAlpha env.p.alpha C)[u]? with
      | none => simp [hr] at hm
      | some row' =>
        rw [hr] at hm
        dsimp only
        refine (cgRow_error_iff _ _ _ _ _ _).mpr ?_
        obtain ⟨e, he, hle⟩ := hcol
        have hmem : e.1 ∈ row'.map Prod.fst := by
          simp only [Option.map_some, Option.some.injEq] at hm
          rw [hm]; exact List.mem_map.mpr ⟨e, he, rfl⟩
        obtain ⟨e', he', heq⟩ := List.mem_map.mp hmem
        exact ⟨e', he', by rw [heq]; exact hle⟩
    · intro xu _ e he
      cases hr : (applyAlpha env.p.alpha C)[xu.2]? with
      | none => rw [hr] at he; cases he; rfl
      | some row => rw [hr] at he; exact cgRow_error he
  have htrain : ∀ k, alsTrain env cols C k ⟨st.user, st.item⟩ = .error .undefinedBehaviour := by
    intro k
    unfold alsTrain alsIteration alsSolver
    simp only [hcg, hn, if_true, hsolve, bind, Except.bind]
  unfold kernelOutcome fitModel
  dsimp only
  cases invalidate <;> simp [fitEpochs, htrain]

/-- **`recalculate_user`** checks the number of rows but not of columns: an item unknown to the model is
read from beyond the item factors. -/
theorem C49_recalculate_user_violated (env : Env f R) (st : MFState f R) (id : Nat)
    (row : List (Nat × R)) (hcol : ∃ e ∈ row, st.item.length ≤ e.1) :
    (recalculateUser env st (.one id) [row]).1 = .error .undefinedBehaviour ∧
      kernelOutcome env st (.query (.recalculateUser (.one id) [row])) = .error .undefinedBehaviour := by
  suffices h : (recalculateUser env st (.one id) [row]).1 = .error .undefinedBehaviour by
    refine ⟨h, ?_⟩
    unfold kernelOutcome
    simp only [h]
    rfl
  have hsame := getYtY_same st
  have hrow : ∃ row', (applyAlpha env.p.alpha [row])[0]? = some row' ∧
      ∃ e ∈ row', st.item.length ≤ e.1 := by
    have hm := applyAlpha_get? env.p.alpha [row] 0
    cases hr : (applyAlpha env.p.alpha [row])[0]? with
    | none => rw [hr] at hm; cases hm
    | some row' =>
      rw [hr] at hm
      obtain ⟨e, he, hle⟩ := hcol
      have hmem : e.1 ∈ row'.map Prod.fst := by
        have hm' : row'.map Prod.fst = row.map Prod.fst := by simpa using hm
        rw [hm']; exact List.mem_map.mpr ⟨e, he, rfl⟩
      obtain ⟨e', he', heq⟩ := List.mem_map.mp hmem
      exact ⟨row', rfl, e', he', by rw [heq]; exact hle⟩
  obtain ⟨row', hr, hc⟩ := hrow
  unfold recalculateUser
  rw [if_neg (by simp [Ids.count])]
  dsimp only
  unfold leastSquaresNative
  rw [← hsame.2] at hc
  simp only [Ids.count, List.range_one, List.mapM_cons, List.mapM_nil, hr]
  rw [leastSquaresRow_unsafe _ _ _ hc]
  rfl

/-- **`recalculate_item`** does not even check the number of rows: asked for more items than there are
rows, it never returns normally, and leaves the arrays if the given rows are empty. -/
theorem C49_recalculate_item_violated (env : Env f R) (st : MFState f R) (ids : Ids)
    (itemUsers : SpRows R) (hlt : itemUsers.length < ids.count) :
    (∀ xs, (recalculateItem env st ids itemUsers).1 ≠ .ok xs) ∧
    ((∀ row ∈ itemUsers, row = []) →
      (recalculateItem env st ids itemUsers).1 = .error .undefinedBehaviour ∧
      kernelOutcome env st (.query (.recalculateItem ids itemUsers)) = .error .undefinedBehaviour) := by
  suffices h : (∀ xs, (recalculateItem env st ids itemUsers).1 ≠ .ok xs) ∧
      ((∀ row ∈ itemUsers, row = []) → (recalculateItem env st ids itemUsers).1 = .error .undefinedBehaviour) by
    refine ⟨h.1, fun he => ⟨h.2 he, ?_⟩⟩
    unfold kernelOutcome
    simp only [h.2 he]
    rfl
  unfold recalculateItem
  dsimp only
  unfold leastSquaresNative
  have hnone : (applyAlpha env.p.alpha itemUsers)[itemUsers.length]? = none :=
    List.getElem?_eq_none_iff.mpr (by rw [applyAlpha_rows])
  constructor
  · intro xs hxs
    have h2 := (mapM_ok_iff hxs).2 itemUsers.length itemUsers.length (List.getElem?_range hlt)
    rw [hnone] at h2
    simp at h2
  · intro hempty
    rw [mapM_error_iff]
    · exact ⟨itemUsers.length, List.mem_range.mpr hlt, by rw [hnone]⟩
    · intro u _ e he
      cases hr : (applyAlpha env.p.alpha itemUsers)[u]? with
      | none => rw [hr] at he; cases he; rfl
      | some row =>
        have hm := applyAlpha_get? env.p.alpha itemUsers u
        rw [hr] at hm
        cases hr' : itemUsers[u]? with
        | none => rw [hr'] at hm; cases hm
        | some row' =>
          rw [hr'] at hm
          have : row = [] := by
            have h0 := hempty row' (List.mem_of_getElem? hr')
            simpa [h0] using hm
          rw [hr] at he
          subst this
          simp [leastSquaresRow] at he

/-- The three calls on a model with two users and two items: training on one user, a row with an unknown
item, and two items with the data of one. -/
example :
    let st := freshState (R := Rat) (f := 1) ⟨[![1], ![1]], [![1], ![2]]⟩
    (kernelOutcome exampleEnv st (.fit true (alsTrain exampleEnv 2 [[(0, 1)]]) (fun _ => [])
      ⟨[], []⟩ 1)).isOkB = false ∧
    (recalculateUser exampleEnv st (.one 0) [[(2, 1)]]).1.isOkB = false ∧
    (recalculateItem exampleEnv st (.many [0, 1]) [[(1, 1)]]).1.isOkB = false := by
  decide +kernel

/-- **GPU: fitting again on fewer users** passes the checks and reads beyond `indptr`. -/
theorem C49_gpu_refit_violated (M : SparseArrays R) (C : SpRows R) (h : Represents M C) (tol : R)
    (steps : Nat) (G : Mat f R) (X Y : List (Vec f R)) (hX : M.rows < X.length)
    (hY : M.cols ≤ Y.length) :
    gpuNativeLeastSquares tol steps G M X Y = .error .undefinedBehaviour :=
  (C49_gpu M C h tol steps G X Y).mpr ⟨by omega, hY, Or.inl hX⟩

/-- **GPU: large models.**  With more than `2^31` factor values the address of the last row overflows an
`int`, for every matrix: 16777217 users with 128 factors are enough. -/
theorem C49_gpu_overflow_violated (M : SparseArrays R) (C : SpRows R) (h : Represents M C) (tol : R)
    (steps : Nat) (G : Mat f R) (X Y : List (Vec f R)) (hX : M.rows = X.length)
    (hY : M.cols = Y.length) (hbig : 2 ^ 31 + f ≤ X.length * f) :
    gpuNativeLeastSquares tol steps G M X Y = .error .undefinedBehaviour := by
  refine (C49_gpu M C h tol steps G X Y).mpr ⟨by omega, by omega, Or.inr (Or.inl ⟨X.length - 1, ?_, ?_⟩)⟩
  · have : 0 < X.length := by
      rcases Nat.eq_zero_or_pos X.length with h0 | h0
      · rw [h0] at hbig; omega
      · exact h0
    omega
  · rw [Nat.sub_mul]; omega

example : 2 ^ 31 + 128 ≤ 16777217 * 128 := by decide

/-- **The GPU loss**, which has no checks: it leaves the arrays exactly if `X` has more rows than the matrix, a column lies beyond the
item factors, or an address does not fit an `int`. -/
theorem C49_gpu_loss (M : SparseArrays R) (C : SpRows R) (h : Represents M C) (X Y : List (Vec f R)) :
    gpuLoss M X Y = .error .undefinedBehaviour ↔
      M.rows < X.length ∨ (∃ u, u < X.length ∧ 2 ^ 31 ≤ u * f) ∨
        ∃ u row e, u < X.length ∧ C[u]? = some row ∧ e ∈ row ∧ (2 ^ 31 ≤ e.1 * f ∨ Y.length ≤ e.1) := by
  have hmul : ∀ a b : Nat, int32Mul a b = if 2 ^ 31 ≤ a * b then .error .undefinedBehaviour else .ok (a * b) := by
    intro a b
    unfold int32Mul
    split <;> split <;> first | rfl | omega
  have hm : ∀ row : List (Nat × R), ((row.mapM fun e => int32Mul e.1 f) = .error .undefinedBehaviour ↔ ∃ e ∈ row, 2 ^ 31 ≤ e.1 * f) := by
    intro row
    rw [mapM_error_iff]
    · simp only [hmul]
      refine exists_congr fun e => and_congr_right fun _ => ?_
      split <;> simp_all
    · intro e _ e' he
      rw [hmul] at he
      split at he <;> cases he
      rfl
  have hm' : ∀ (row : List (Nat × R)) e', (row.mapM fun e => int32Mul e.1 f) = .error e' → e' = .undefinedBehaviour := by
    intro row e' he
    induction row with
    | nil => cases he
    | cons a row ih =>
      rw [List.mapM_cons, hmul] at he
      by_cases ha : 2 ^ 31 ≤ a.1 * f
      · rw [if_pos ha] at he
        cases he
        rfl
      · rw [if_neg ha] at he
        simp only [bind, Except.bind] at he
        cases hr : row.mapM fun e => int32Mul e.1 f with
        | error e'' =>
          rw [hr] at he ih
          cases he
          exact ih rfl
        | ok bs =>
          rw [hr] at he
          cases he
  have hreads : ∀ u, (gpuLossReads M Y u = .error .undefinedBehaviour ↔
        2 ^ 31 ≤ u * f ∨ M.rows ≤ u ∨ ∃ row e, C[u]? = some row ∧ e ∈ row ∧ (2 ^ 31 ≤ e.1 * f ∨ Y.length ≤ e.1)) ∧
      ∀ e, gpuLossReads M Y u = .error e → e = .undefinedBehaviour := by
    intro u
    unfold gpuLossReads
    rw [hmul, csrReadRow_eq h]
    by_cases hu : 2 ^ 31 ≤ u * f
    · rw [if_pos hu]
      exact ⟨⟨fun _ => .inl hu, fun _ => rfl⟩, fun e he => by cases he; rfl⟩
    rw [if_neg hu]
    cases hr : C[u]? with
    | none =>
      have := List.getElem?_eq_none_iff.mp hr
      rw [h.rows] at this
      exact ⟨⟨fun _ => .inr (.inl this), fun _ => rfl⟩, fun e he => by cases he; rfl⟩
    | some row =>
      have hur := (List.getElem?_eq_some_iff.mp hr).1
      rw [h.rows] at hur
      simp only [bind, Except.bind]
      cases hrm : row.mapM fun e => int32Mul e.1 f with
      | error e' =>
        cases hm' row e' hrm
        obtain ⟨e, he, hle⟩ := (hm row).mp hrm
        exact ⟨⟨fun _ => .inr (.inr ⟨row, e, rfl, he, .inl hle⟩), fun _ => rfl⟩, fun e he => by cases he; rfl⟩
      | ok bs =>
        refine ⟨?_, fun e he => rowEntries_error he⟩
        rw [rowEntries_error_iff]
        constructor
        · rintro ⟨e, he, hle⟩
          exact .inr (.inr ⟨row, e, rfl, he, .inr hle⟩)
        · rintro (h1 | h1 | ⟨row', e, hrow', he, hle | hle⟩)
          · exact absurd h1 hu
          · omega
          · cases hrow'
            have := (hm row).mpr ⟨e, he, hle⟩
            rw [hrm] at this
            cases this
          · cases hrow'
            exact ⟨e, he, hle⟩
  unfold gpuLoss
  rw [mapM_error_iff fun u _ e he => (hreads u).2 e he]
  simp only [(hreads _).1, List.mem_range]
  constructor
  · rintro ⟨u, hu, h1 | h1 | ⟨row, e, hr, he, hle⟩⟩
    · exact .inr (.inl ⟨u, hu, h1⟩)
    · exact .inl (by omega)
    · exact .inr (.inr ⟨u, row, e, hu, hr, he, hle⟩)
  · rintro (h1 | ⟨u, hu, h1⟩ | ⟨u, row, e, hu, hr, he, hle⟩)
    · exact ⟨M.rows, h1, .inr (.inl le_rfl)⟩
    · exact ⟨u, hu, .inl h1⟩
    · exact ⟨u, hu, .inr (.inr ⟨row, e, hr, he, hle⟩)⟩

/-- The GPU loss has no checks at all: a column beyond the item factors is read. -/
theorem C49_gpu_loss_violated :
    gpuLoss (f := 1) exampleCsr [![1], ![1]] [![1], ![2]] = .error .undefinedBehaviour := by
  have h : (match gpuLoss (f := 1) exampleCsr [![1], ![1]] [![1], ![2]] with
    | .error .undefinedBehaviour => true | _ => false) = true := by decide +kernel
  revert h
  split <;> simp_all

/-! ## Shared memory of the kernels -/

/-- The solver's launch provides enough shared memory for `P` and the scratch of `dot`. -/
theorem C49_shared (factors : Nat) (h : 0 < factors) :
    factors + dotLastShared factors < alsSharedFloats factors := by
  unfold dotLastShared alsSharedFloats
  omega

/-- The loss kernel's launch provides enough shared memory, except for a single half precision factor,
where it provides none. -/
theorem C49_loss_shared (itemsize factors : Nat) (hi : itemsize = 4 ∨ itemsize = 2) (h : 0 < factors) :
    dotLastShared factors < lossSharedFloats itemsize factors ↔ ¬ (itemsize = 2 ∧ factors = 1) := by
  unfold dotLastShared lossSharedFloats
  rcases hi with rfl | rfl
  · simp; omega
  · simp; omega

theorem C49_loss_shared_violated : ¬ dotLastShared 1 < lossSharedFloats 2 1 := by decide

/-! ## BPR and LMF -/

/-- The cell of the factor matrices an instruction reads or writes. -/
def BprInstr.cell? : BprInstr → Option BprCell
  | .loadUser t j | .storeUser t j => some (.user t.user j)
  | .loadLiked t j | .storeLiked t j | .storeLikedBias t j => some (.item t.liked j)
  | .loadDisliked t j | .storeDisliked t j | .storeDislikedBias t j => some (.item t.disliked j)
  | .skip | .zero | .score | .logistic | .keep => none

/-- The cell is inside factor matrices with `users` and `items` rows and `cols` columns. -/
def BprCell.Inside (users items cols : Nat) : BprCell → Prop
  | .user u j => u < users ∧ j < cols
  | .item i j => i < items ∧ j < cols

theorem bprUpdateProg_cell (factors : Nat) (t : BprTriple) (i : BprInstr)
    (hi : i ∈ bprUpdateProg factors t) (c : BprCell) (hc : i.cell? = some c) :
    ∃ j, j ≤ factors ∧ (c = .user t.user j ∨ c = .item t.liked j ∨ c = .item t.disliked j) := by
  unfold bprUpdateProg bprScoreRound bprUpdateRound at hi
  simp only [List.mem_append, List.mem_flatMap, List.mem_cons, List.not_mem_nil, or_false,
    List.mem_range] at hi
  rcases hi with (((rfl | ⟨j, hj, rfl | rfl | rfl | rfl⟩) | rfl) |
    ⟨j, hj, rfl | rfl | rfl | rfl | rfl | rfl | rfl | rfl | rfl⟩) | rfl | rfl | rfl | rfl <;>
    simp only [BprInstr.cell?, Option.some.injEq, reduceCtorEq] at hc <;> subst hc
  all_goals first
    | exact ⟨j, by omega, by tauto⟩
    | exact ⟨factors, le_rfl, by tauto⟩

/-- **BPR on the CPU**: if the factor matrices have at least as many rows as the matrix has users and
items, and `factors + 1` columns, every load and store of every epoch, with any number of threads and any
interleaving, is inside them. -/
theorem C49_bpr {Th : Type} [DecidableEq Th] [Fintype Th] (verify : Bool) (matrix : List (List Nat))
    (cols : Nat) (hcols : ∀ r ∈ matrix, ∀ i ∈ r, i < cols) (factors users items : Nat)
    (hu : matrix.length ≤ users) (hi : cols ≤ items) (e : BprEpoch Th)
    (he : e.Valid verify (bprRows verify matrix) factors) (p : Th × BprInstr) (hp : p ∈ e.schedule)
    (c : BprCell) (hc : p.2.cell? = some c) : c.Inside users items (factors + 1) := by
  have hlike : ∀ u i, Likes matrix u i → u < users ∧ i < items := by
    rintro u i ⟨r, hr, hm⟩
    have h1 := (List.getElem?_eq_some_iff.mp hr).1
    have h2 := hcols r (List.mem_of_getElem? hr) i hm
    omega
  have hm := mem_streamOf hp
  rw [he.schedule p.1] at hm
  obtain ⟨d, hd, hin⟩ := List.mem_flatMap.mp hm
  obtain ⟨h1, h2⟩ := he.draws p.1 d hd
  rw [bprRows_nnz] at h1 h2
  obtain ⟨u, a, b, hs, ⟨u', hs'⟩, h | h⟩ := C35_choice verify matrix d.1 d.2 h1 h2
  · unfold bprProg at hin
    rw [h.1] at hin
    have : p.2 = .skip := by simpa using hin
    rw [this] at hc; simp [BprInstr.cell?] at hc
  · unfold bprProg at hin
    rw [h.1] at hin
    obtain ⟨j, hj, rfl | rfl | rfl⟩ := bprUpdateProg_cell factors _ p.2 hin c hc
    · exact ⟨(hlike _ _ hs).1, by omega⟩
    · exact ⟨(hlike _ _ hs).2, by omega⟩
    · exact ⟨(hlike _ _ hs').2, by omega⟩

/-- **BPR: fitting again on a larger matrix**: the epoch of `C35` (users 0 and 1) run on the factors of a
model with one user writes outside them. -/
theorem C49_bpr_refit_violated :
    exampleEpoch.Valid true (bprRows true [[2, 0], [1]]) 1 ∧
    ∃ p ∈ exampleEpoch.schedule, p.2.cell? = some (.user 1 0) ∧
      ¬ (BprCell.user 1 0).Inside 1 3 2 := by
  refine ⟨⟨by unfold IsSchedule; decide +kernel, by decide +kernel, by decide +kernel⟩,
    (1, .storeUser ⟨1, 1, 0⟩ 0), ?_, rfl, fun h => absurd h.1 (by decide)⟩
  decide +kernel

variable {factors : Nat}

/-- **LMF**: a fit, also on factors of an earlier fit on a matrix of the same shape, never leaves the
arrays, and keeps the shape. -/
theorem C49_lmf (sigm sqrt : R → R) (eps lr reg : R) (negProp : Int) (cols : Nat) (C : SpRows R)
    (hC : ColumnsBelow cols C) (randItem randUser : Nat → Vec (factors + 2) R)
    (item user : Option (List (Vec (factors + 2) R)))
    (hitem : ∀ Y, item = some Y → Y.length = cols) (huser : ∀ X, user = some X → X.length = C.length)
    (draws : List LmfDraws)
    (hd : ∀ d ∈ draws, ∀ u k, d.user u k < nnz (columns C) ∧ d.item u k < nnz (columns C)) :
    ∃ st, lmfFit sigm sqrt eps lr reg negProp cols C randItem randUser item user draws = .ok st ∧
      st.user.factors.length = C.length ∧ st.item.factors.length = cols := by
  unfold lmfFit
  refine lmfEpochs_total sigm sqrt eps lr reg negProp cols C hC draws hd _ ?_ (by simp) ?_ (by simp)
  · cases user with
    | none => simp [lmfInit]
    | some X => simpa using huser X rfl
  · cases item with
    | none => simp [lmfInit]
    | some Y => simpa using hitem Y rfl

/-- **LMF: fitting again on fewer users** reads beyond the arrays, for every such matrix. -/
theorem C49_lmf_refit_violated (sigm sqrt : R → R) (eps lr reg : R) (negProp : Int) (cols : Nat)
    (C : SpRows R) (randItem randUser : Nat → Vec (factors + 2) R)
    (item : Option (List (Vec (factors + 2) R))) (X : List (Vec (factors + 2) R))
    (hlt : C.length < X.length) (d : LmfDraws) (draws : List LmfDraws) :
    lmfFit sigm sqrt eps lr reg negProp cols C randItem randUser item (some X) (d :: draws) =
      .error .undefinedBehaviour := by
  have hneg : ∀ (indices : List Nat) (Y : List (Vec (factors + 2) R)) (ds : List Nat) e,
      lmfNegRows indices Y ds = .error e → e = .undefinedBehaviour := by
    intro indices Y ds e he
    by_contra hne
    unfold lmfNegRows at he
    refine absurd he (mapM_ne_error fun a _ => ?_)
    split
    · intro hc; cases hc; exact hne rfl
    · split
      · intro hc; cases hc; exact hne rfl
      · simp
  have hrow : ∀ Y dr sums u (x : Vec (factors + 2) R) e, lmfRowAt sigm sqrt eps lr reg negProp C Y dr sums u x = .error e →
      e = .undefinedBehaviour := by
    intro Y dr sums u x e he
    unfold lmfRowAt at he
    split at he
    · rename_i row s _ _
      cases h1 : rowEntries Err.undefinedBehaviour Y row with
      | error e' =>
        simp only [bind, Except.bind, h1] at he
        cases he; exact rowEntries_error h1
      | ok pos =>
        cases h2 : lmfNegRows (lmfIndices C) Y (lmfRowDraws (factors + 2) negProp row.length (dr u)) with
        | error e' =>
          simp only [bind, Except.bind, h1, h2] at he
          cases he; exact hneg _ _ _ _ h2
        | ok neg => simp [bind, Except.bind, h1, h2, pure, Except.pure] at he
    · cases he; rfl
  have hupd : ∀ Y dr sums, lmfUpdate sigm sqrt eps lr reg negProp C Y dr ⟨X, sums⟩ =
      .error .undefinedBehaviour := by
    intro Y dr sums
    have hm : X.zipIdx.mapM (fun p => lmfRowAt sigm sqrt eps lr reg negProp C Y dr sums p.2 p.1) =
        .error .undefinedBehaviour := by
      rw [mapM_error_iff]
      · refine ⟨(X[C.length], C.length), mem_zipIdx'.mpr (List.getElem?_eq_getElem hlt), ?_⟩
        unfold lmfRowAt
        dsimp only
        rw [List.getElem?_eq_none_iff.mpr le_rfl]
      · exact fun xu _ e he => hrow _ _ _ _ _ _ he
    unfold lmfUpdate
    simp only [hm, bind, Except.bind]
  unfold lmfFit lmfEpochs lmfEpoch
  simp only [Option.getD_some, hupd, bind, Except.bind]

end Implicit
