import Verif.Lemmas.NanSweep
/-!
# C75 — training a model again after a failed training run: NaN
-/

set_option linter.unusedSectionVars false

namespace Implicit

open Spec (HasNaN TrainsTo)

variable {V : Type} {f : Nat} {A : FloatOps V}

/-! ## ALS on the CPU -/

/-- The matrix fits a model of the given sizes. -/
structure Spec.FitsModel (users items : Nat) (C : SpRows V) : Prop where
  rows : C.length = users
  columns : ∀ row ∈ C, ∀ e ∈ row, e.1 < items

/-- Something is stored in the matrix. -/
def Spec.HasEntry (C : SpRows V) : Prop := ∃ row ∈ C, row ≠ []

/-- If the epochs of a run that raised `ModelFitError` can be told, some factor they left is NaN. -/
theorem raised_nan {isNaN : V → Bool} {train : Nat → Factors f V → Except Err (Factors f V)} {n : Nat} {init m : Factors f V}
    (ht : TrainsTo train n init m) (h : cpuFit isNaN train n init = .error .modelFitError) :
    HasNaN isNaN m.user ∨ HasNaN isNaN m.item := by
  have key := trainEpochs_iff train 0 n init m
  simp only [Nat.zero_add] at key
  exact (C21_cpu_raises isNaN train n init m (key.mpr ht)).mp h

/-- Solvers that treat NaN as `NanSweep` says: the item factors left behind contain NaN. -/
theorem left_nan {isNaN : V → Bool} {solver : SweepFn f V} (hS : NanSweep isNaN solver) {cols : Nat} {C : SpRows V} {reg : V}
    {n : Nat} {init m : Factors f V}
    (ht : TrainsTo (fun _ => alsIteration solver C (transposeRows cols C) reg) (n + 1) init m)
    (h : cpuFit isNaN (fun _ => alsIteration solver C (transposeRows cols C) reg) (n + 1) init = .error .modelFitError) :
    HasNaN isNaN m.item := by
  rcases raised_nan ht h with hu | hi
  · obtain ⟨states, -, hm, hs⟩ := ht
    have := hs n (Nat.lt_succ_self n)
    rw [hm] at this
    exact alsIteration_item_nan hS this hu
  · exact hi

theorem epochs_nan {isNaN : V → Bool} {solver : SweepFn f V} (hS : NanSweep isNaN solver) {cols : Nat} {C : SpRows V} {reg : V}
    {m m' : Factors f V} {n : Nat}
    (hdata : ∃ (u : Nat) (row : List (Nat × V)), u < m.user.length ∧ C[u]? = some row ∧ row ≠ [])
    (hnan : HasNaN isNaN m.item) (ht : TrainsTo (fun _ => alsIteration solver C (transposeRows cols C) reg) n m m') :
    HasNaN isNaN m'.item := by
  obtain ⟨states, h0, hn, hs⟩ := ht
  have key : ∀ k ≤ n, HasNaN isNaN (states k).item ∧ (states k).user.length = m.user.length := by
    intro k
    induction k with
    | zero => intro _; rw [h0]; exact ⟨hnan, rfl⟩
    | succ k ih =>
      intro hk
      obtain ⟨h1, h2⟩ := ih (by omega)
      obtain ⟨h3, h4⟩ := alsIteration_nan hS (hs k (by omega)) (by rw [h2]; exact hdata) h1
      exact ⟨h3, h4.trans h2⟩
  rw [← hn]
  exact (key n (le_refl n)).1

/-- **C75 is violated** by ALS with the Cholesky solver: after a run that failed because of NaN, no run on data with at
least one entry for a known user returns, whatever its parameters. -/
theorem C75_cholesky_violated (hA : A.Strict) {posv posv' : Mat f V → Vec f V → Option (Vec f V)}
    (hp : PosvStrict A.isNaN posv) (hp' : PosvStrict A.isNaN posv') {cols cols' : Nat} {C C' : SpRows V} {reg reg' : V}
    {n n' : Nat} {init m : Factors f V}
    (ht : TrainsTo (fun _ => alsIteration (A.leastSquares posv) C (transposeRows cols C) reg) (n + 1) init m)
    (h : A.alsFit (A.leastSquares posv) cols C reg (n + 1) init = .error .modelFitError)
    (hdata : ∃ (u : Nat) (row : List (Nat × V)), u < m.user.length ∧ C'[u]? = some row ∧ row ≠ []) (m' : Factors f V) :
    A.alsFit (A.leastSquares posv') cols' C' reg' n' m ≠ .ok m' := by
  intro hok
  obtain ⟨h1, -, h2⟩ := (C21_cpu_exact _ _ _ _ _).mp hok
  exact h2 (epochs_nan (leastSquares_nan hA hp') hdata (left_nan (leastSquares_nan hA hp) ht h) h1)

theorem mapM_returns {α β : Type} {g : α → Except Err β} : ∀ {l : List α}, (∀ a ∈ l, ∃ b, g a = .ok b) → ∃ bs, l.mapM g = .ok bs
  | [], _ => ⟨[], rfl⟩
  | a :: l, h => by
    obtain ⟨b, hb⟩ := h a (by simp)
    obtain ⟨bs, hbs⟩ := mapM_returns (g := g) (l := l) fun a ha => h a (List.mem_cons_of_mem _ ha)
    exact ⟨b :: bs, by simp [List.mapM_cons, hb, hbs, bind, Except.bind, pure, Except.pure]⟩

theorem floatCG_total (tol : V) (steps : Nat) {C : SpRows V} {X Y : List (Vec f V)} (reg : V)
    (h : Spec.FitsModel X.length Y.length C) : ∃ X', A.leastSquaresCG tol steps C X Y reg = .ok X' := by
  refine mapM_returns fun xu hxu => ?_
  obtain ⟨k, hk⟩ := List.mem_iff_getElem?.mp hxu
  rw [List.getElem?_zipIdx] at hk
  obtain ⟨x, hx, rfl⟩ := Option.map_eq_some_iff.mp hk
  have hu : 0 + k < C.length := by rw [h.rows, Nat.zero_add]; exact (List.getElem?_eq_some_iff.mp hx).1
  dsimp only
  rw [List.getElem?_eq_getElem hu]
  unfold FloatOps.cgRow
  dsimp only
  split
  · exact ⟨_, rfl⟩
  · obtain ⟨es, hes⟩ := rowEntries_total (err := .undefinedBehaviour) (h.columns _ (List.getElem_mem hu))
    exact ⟨_, by rw [hes]; rfl⟩

theorem floatCG_length {tol : V} {steps : Nat} {C : SpRows V} {X Y : List (Vec f V)} {reg : V} {X' : List (Vec f V)}
    (h : A.leastSquaresCG tol steps C X Y reg = .ok X') : X'.length = X.length := by
  rw [(mapM_ok_iff h).1, List.length_zipIdx]

theorem transpose_fits {users items : Nat} {C : SpRows V} (h : Spec.FitsModel users items C) :
    Spec.FitsModel items users (transposeRows items C) := by
  refine ⟨transpose_size _ _, fun row hrow e he => ?_⟩
  obtain ⟨i, hi⟩ := List.mem_iff_getElem?.mp hrow
  obtain ⟨row', h1, -⟩ := transpose_mem hi he
  rw [← h.rows]
  exact (List.getElem?_eq_some_iff.mp h1).1

theorem cgEpochs_total (tol reg : V) (steps : Nat) {C : SpRows V} : ∀ (n i : Nat) (m : Factors f V),
    Spec.FitsModel m.user.length m.item.length C →
    ∃ m', trainEpochs (fun _ => alsIteration (A.leastSquaresCG tol steps) C (transposeRows m.item.length C) reg) i n m = .ok m'
  | 0, _, m, _ => ⟨m, rfl⟩
  | n + 1, i, m, h => by
    obtain ⟨X, hX⟩ := floatCG_total (A := A) tol steps reg h
    have hXl := floatCG_length hX
    obtain ⟨Y, hY⟩ := floatCG_total (A := A) tol steps reg (X := m.item) (Y := X) (by rw [hXl]; exact transpose_fits h)
    have hYl := floatCG_length hY
    obtain ⟨m', hm'⟩ := cgEpochs_total tol reg steps n (i + 1) ⟨X, Y⟩ (by dsimp only; rw [hXl, hYl]; exact h)
    refine ⟨m', ?_⟩
    dsimp only at hm'
    rw [hYl] at hm'
    simp only [trainEpochs, alsIteration, hX, hY, bind, Except.bind, pure, Except.pure]
    exact hm'

/-- **C75 is violated** by ALS with the conjugate gradient solver, the default: after a run that failed because of NaN, every
later run on data that fits the model and has at least one entry raises `ModelFitError`, whatever its parameters. -/
theorem C75_cg_violated (hA : A.Strict) {tol tol' reg reg' : V} {steps steps' : Nat} (hs : 0 < steps) (hs' : 0 < steps')
    {cols n : Nat} {C : SpRows V} {init m : Factors f V}
    (ht : TrainsTo (fun _ => alsIteration (A.leastSquaresCG tol steps) C (transposeRows cols C) reg) (n + 1) init m)
    (h : A.alsFit (A.leastSquaresCG tol steps) cols C reg (n + 1) init = .error .modelFitError)
    {C' : SpRows V} (hfit : Spec.FitsModel m.user.length m.item.length C') (hdata : Spec.HasEntry C') (n' : Nat) :
    A.alsFit (A.leastSquaresCG tol' steps') m.item.length C' reg' n' m = .error .modelFitError := by
  obtain ⟨m', hm'⟩ := cgEpochs_total (A := A) tol' reg' steps' n' 0 m hfit
  have key := trainEpochs_iff (fun _ => alsIteration (A.leastSquaresCG tol' steps') C' (transposeRows m.item.length C') reg') 0 n' m m'
  refine (C21_cpu_raises _ _ _ _ _ hm').mpr (Or.inr ?_)
  obtain ⟨row, hrow, hne⟩ := hdata
  obtain ⟨u, hu⟩ := List.mem_iff_getElem?.mp hrow
  refine epochs_nan (leastSquaresCG_nan hA tol' hs') ⟨u, row, ?_, hu, hne⟩ (left_nan (leastSquaresCG_nan hA tol hs) ht h)
    (key.mp hm')
  rw [← hfit.rows]
  exact (List.getElem?_eq_some_iff.mp hu).1

/-- The Cholesky solver does not look at the old values of the rows it computes: with item factors free of NaN, the user factors
left behind do not matter. -/
theorem C75_cholesky_users (posv : Mat f V → Vec f V → Option (Vec f V)) (cols : Nat) (C : SpRows V) (reg : V) (n : Nat)
    (X X' Y : List (Vec f V)) (h : X.length = X'.length) :
    A.alsFit (A.leastSquares posv) cols C reg (n + 1) ⟨X, Y⟩ = A.alsFit (A.leastSquares posv) cols C reg (n + 1) ⟨X', Y⟩ := by
  have hit : alsIteration (A.leastSquares posv) C (transposeRows cols C) reg ⟨X, Y⟩ =
      alsIteration (A.leastSquares posv) C (transposeRows cols C) reg ⟨X', Y⟩ := by
    simp only [alsIteration, FloatOps.leastSquares, h]
  simp only [FloatOps.alsFit, cpuFit, trainEpochs, hit]

/-! ## The GPU: NaN becomes zero -/

/-- **C75 is violated** by GPU ALS in another way: one NaN among the item factors and the next iteration replaces the factors
of all users by zero, and does not raise. -/
theorem C75_gpu_violated (hA : A.Strict) {tol reg : V} {steps users items : Nat} {C Ct : SpRows V} {m m' : Factors f V}
    (h : A.gpuIteration tol reg steps users items C Ct m = .ok m') (hnan : HasNaN A.isNaN m.item) :
    ∀ x ∈ m'.user, x = fun _ => A.zero := by
  unfold FloatOps.gpuIteration at h
  cases hX : A.gpuLeastSquares tol steps (A.regularised (A.gram m.item) reg) items C m.user m.item with
  | error e => rw [hX] at h; cases h
  | ok X =>
    rw [hX] at h
    cases hY : A.gpuLeastSquares tol steps (A.regularised (A.gram X) reg) users Ct m.item X with
    | error e => simp [hY, bind, Except.bind] at h
    | ok Y =>
      have hm : m' = ⟨X, Y⟩ := by simpa [hY, bind, Except.bind, pure, Except.pure, eq_comm] using h
      subst hm
      unfold FloatOps.gpuLeastSquares at hX
      split_ifs at hX
      obtain ⟨hl, hrows⟩ := mapM_ok_iff hX
      intro x hx
      obtain ⟨u, hu⟩ := List.mem_iff_getElem?.mp hx
      have hlt : u < m.user.length := by
        have := (List.getElem?_eq_some_iff.mp hu).1
        rw [hl, List.length_zipIdx] at this
        exact this
      obtain ⟨y, hy, hy'⟩ := hrows u _ (zipIdx_get (List.getElem?_eq_getElem hlt))
      rw [show X[u]? = some x from hu] at hy'
      cases hy'
      dsimp only at hy
      cases hc : C[u]? with
      | none => rw [hc] at hy; cases hy
      | some row =>
        rw [hc] at hy
        dsimp only at hy
        unfold FloatOps.gpuRow at hy
        split_ifs at hy with he
        · exact (Except.ok.inj hy).symm
        · cases hes : rowEntries .undefinedBehaviour m.item row with
          | error e => rw [hes] at hy; cases hy
          | ok es =>
            rw [hes] at hy
            obtain ⟨i, hi, a, ha⟩ := hnan
            have hG := regularised_nan hA (gram_nan hA (List.getElem_mem hi) ha a) reg
            have hn := (cgSolve_nan hA m.user[u] ⟨a, Or.inl hG⟩ tol steps es).2
            rw [← Except.ok.inj hy]
            exact if_pos hn

/-- **C75 is violated** by `fit` of GPU ALS: training further from factors with a NaN among the items is training from zero user
factors, and nothing is raised.  Over a field the `fit` here is the one of the other claims (`exact_gpuAlsFit`). -/
theorem C75_gpu_fit_violated (hA : A.Strict) {tol reg : V} {steps cols n : Nat} {C : SpRows V} {m m' : Factors f V}
    (h : A.gpuAlsFit tol reg steps cols C (n + 1) m = .ok m') (hnan : HasNaN A.isNaN m.item) :
    ∃ m₁, A.gpuAlsFit tol reg steps cols C 1 m = .ok m₁ ∧ (∀ x ∈ m₁.user, x = fun _ => A.zero) ∧
      A.gpuAlsFit tol reg steps cols C n m₁ = .ok m' := by
  unfold FloatOps.gpuAlsFit gpuFit at h ⊢
  unfold trainEpochs at h
  cases hit : A.gpuIteration tol reg steps C.length cols C (transposeRows cols C) m with
  | error e => rw [hit] at h; cases h
  | ok m₁ =>
    rw [hit] at h
    refine ⟨m₁, ?_, C75_gpu_violated hA hit hnan, ?_⟩
    · unfold trainEpochs
      rw [hit]
      rfl
    · rw [← h]
      exact trainEpochs_start n 0 1 m₁

/-! ## BPR -/

/-- Following one thread: every store to `cell` is preceded by a load of `cell` into the register it starts from (`fa`, `fb`,
`fc`: the register was loaded from `cell`). -/
def bprKeeps (cell : BprCell) : Bool → Bool → Bool → List BprInstr → Bool
  | _, _, _, [] => true
  | fa, fb, fc, i :: l =>
    match i with
    | .loadUser t j => bprKeeps cell (decide (BprCell.user t.user j = cell)) fb fc l
    | .loadLiked t j => bprKeeps cell fa (decide (BprCell.item t.liked j = cell)) fc l
    | .loadDisliked t j => bprKeeps cell fa fb (decide (BprCell.item t.disliked j = cell)) l
    | .storeUser t j => (fa || decide (BprCell.user t.user j ≠ cell)) && bprKeeps cell fa fb fc l
    | .storeLiked t j => (fb || decide (BprCell.item t.liked j ≠ cell)) && bprKeeps cell fa fb fc l
    | .storeDisliked t j => (fc || decide (BprCell.item t.disliked j ≠ cell)) && bprKeeps cell fa fb fc l
    | .storeLikedBias t j => (fb || decide (BprCell.item t.liked j ≠ cell)) && bprKeeps cell fa fb fc l
    | .storeDislikedBias t j => (fc || decide (BprCell.item t.disliked j ≠ cell)) && bprKeeps cell fa fb fc l
    | _ => bprKeeps cell fa fb fc l

theorem bprKeeps_append (cell : BprCell) {k : List BprInstr} (hk : ∀ fa fb fc, bprKeeps cell fa fb fc k = true) :
    ∀ (l : List BprInstr) (fa fb fc : Bool), bprKeeps cell fa fb fc l = true → bprKeeps cell fa fb fc (l ++ k) = true
  | [], fa, fb, fc, _ => hk fa fb fc
  | i :: l, fa, fb, fc, h => by
    cases i <;> simp only [bprKeeps, List.cons_append, Bool.and_eq_true] at h ⊢ <;>
      first
        | exact bprKeeps_append cell hk l _ _ _ h
        | exact ⟨h.1, bprKeeps_append cell hk l _ _ _ h.2⟩

theorem bprKeeps_flatMap {α : Type} (cell : BprCell) (g : α → List BprInstr)
    (hg : ∀ a fa fb fc, bprKeeps cell fa fb fc (g a) = true) :
    ∀ (l : List α) (fa fb fc : Bool), bprKeeps cell fa fb fc (l.flatMap g) = true
  | [], _, _, _ => rfl
  | a :: l, fa, fb, fc => by
    rw [List.flatMap_cons]
    exact bprKeeps_append cell (bprKeeps_flatMap cell g hg l) _ _ _ _ (hg a fa fb fc)

theorem bprKeeps_update (cell : BprCell) (factors : Nat) (t : BprTriple) (fa fb fc : Bool) :
    bprKeeps cell fa fb fc (bprUpdateProg factors t) = true := by
  unfold bprUpdateProg
  refine bprKeeps_append cell (fun fa fb fc => ?_) _ _ _ _ (bprKeeps_append cell (fun fa fb fc => ?_) _ _ _ _
    (bprKeeps_append cell (fun fa fb fc => ?_) _ _ _ _ (bprKeeps_append cell (fun fa fb fc => ?_) _ _ _ _ ?_)))
  · simp only [bprKeeps, Bool.and_true, Bool.and_eq_true, Bool.or_eq_true, decide_eq_true_eq]
    exact ⟨em _, em _⟩
  · refine bprKeeps_flatMap cell _ (fun j fa fb fc => ?_) _ _ _ _
    simp only [bprUpdateRound, bprKeeps, Bool.and_true, Bool.and_eq_true, Bool.or_eq_true, decide_eq_true_eq]
    exact ⟨em _, em _, em _⟩
  · rfl
  · exact bprKeeps_flatMap cell _ (fun j fa fb fc => rfl) _ _ _ _
  · rfl

theorem bprKeeps_prog (cell : BprCell) (verify : Bool) (rows : List (List Nat)) (factors : Nat) (d : Nat × Nat) (fa fb fc : Bool) :
    bprKeeps cell fa fb fc (bprProg verify rows factors d) = true := by
  unfold bprProg
  split
  · rfl
  · rfl
  · exact bprKeeps_update cell factors _ fa fb fc

section Bpr

variable {Th : Type} [DecidableEq Th]

theorem streamOf_cons_self {I : Type} (t : Th) (i : I) (w : List (Th × I)) : streamOf t ((t, i) :: w) = i :: streamOf t w := by
  simp [streamOf]

theorem streamOf_cons_ne {I : Type} {t t' : Th} (h : t ≠ t') (i : I) (w : List (Th × I)) :
    streamOf t' ((t, i) :: w) = streamOf t' w := by
  simp [streamOf, h]

/-- What a thread's registers are known to hold. -/
def BprKnown (isNaN : V → Bool) (s : BprScratch V) (fl : Bool × Bool × Bool) : Prop :=
  (fl.1 = true → isNaN s.a = true) ∧ (fl.2.1 = true → isNaN s.b = true) ∧ (fl.2.2 = true → isNaN s.c = true)

theorem update_nan {isNaN : V → Bool} {m : BprCell → V} {cell c : BprCell} {v : V} (hm : isNaN (m cell) = true)
    (h : c = cell → isNaN v = true) : isNaN (Function.update m c v cell) = true := by
  by_cases hc : c = cell
  · subst hc; rw [Function.update_self]; exact h rfl
  · rw [Function.update_of_ne (Ne.symm hc)]; exact hm

/-- One instruction of a thread. -/
theorem bprAct_nan (hA : A.Strict) (sig : V → V) (half lr reg : V) {cell : BprCell} {i : BprInstr} {l : List BprInstr}
    {s : BprScratch V} {m : BprCell → V} {fl : Bool × Bool × Bool} (hm : A.isNaN (m cell) = true) (hk : BprKnown A.isNaN s fl)
    (hl : bprKeeps cell fl.1 fl.2.1 fl.2.2 (i :: l) = true) :
    A.isNaN ((A.bprAct sig half lr reg i s m).2 cell) = true ∧
      ∃ fl' : Bool × Bool × Bool, BprKnown A.isNaN (A.bprAct sig half lr reg i s m).1 fl' ∧
        bprKeeps cell fl'.1 fl'.2.1 fl'.2.2 l = true := by
  obtain ⟨fa, fb, fc⟩ := fl
  obtain ⟨ha, hb, hc⟩ := hk
  have hload : ∀ c : BprCell, decide (c = cell) = true → A.isNaN (m c) = true := fun c h => by rw [of_decide_eq_true h]; exact hm
  have hstore : ∀ {c : BprCell} {b : Bool} {v w : V}, (b || decide (c ≠ cell)) = true → (b = true → A.isNaN v = true) →
      A.isNaN (Function.update m c (A.add v w) cell) = true := by
    intro c b v w h1 h2
    refine update_nan hm fun hcell => hA.add _ _ (Or.inl (h2 ?_))
    rcases Bool.or_eq_true _ _ |>.mp h1 with h | h
    · exact h
    · exact absurd hcell (of_decide_eq_true h)
  cases i <;> simp only [bprKeeps, Bool.and_eq_true] at hl <;> simp only [FloatOps.bprAct]
  case loadUser t j => exact ⟨hm, (_, fb, fc), ⟨hload _, hb, hc⟩, hl⟩
  case loadLiked t j => exact ⟨hm, (fa, decide (BprCell.item t.liked j = cell), fc), ⟨ha, hload _, hc⟩, hl⟩
  case loadDisliked t j => exact ⟨hm, (fa, fb, decide (BprCell.item t.disliked j = cell)), ⟨ha, hb, hload _⟩, hl⟩
  case storeUser t j => exact ⟨hstore hl.1 ha, (fa, fb, fc), ⟨ha, hb, hc⟩, hl.2⟩
  case storeLiked t j => exact ⟨hstore hl.1 hb, (fa, fb, fc), ⟨ha, hb, hc⟩, hl.2⟩
  case storeDisliked t j => exact ⟨hstore hl.1 hc, (fa, fb, fc), ⟨ha, hb, hc⟩, hl.2⟩
  case storeLikedBias t j => exact ⟨hstore hl.1 hb, (fa, fb, fc), ⟨ha, hb, hc⟩, hl.2⟩
  case storeDislikedBias t j => exact ⟨hstore hl.1 hc, (fa, fb, fc), ⟨ha, hb, hc⟩, hl.2⟩
  all_goals exact ⟨hm, (fa, fb, fc), ⟨ha, hb, hc⟩, hl⟩

theorem bprSchedule_nan (hA : A.Strict) (sig : V → V) (half lr reg : V) {cell : BprCell} :
    ∀ (w : List (Th × BprInstr)) (σ : Th → BprScratch V) (m : BprCell → V) (fl : Th → Bool × Bool × Bool),
    A.isNaN (m cell) = true → (∀ t, BprKnown A.isNaN (σ t) (fl t)) →
    (∀ t, bprKeeps cell (fl t).1 (fl t).2.1 (fl t).2.2 (streamOf t w) = true) →
    A.isNaN ((execInterleaved (A.bprAct sig half lr reg) w σ m).2 cell) = true
  | [], _, _, _, hm, _, _ => hm
  | (t, i) :: w, σ, m, fl, hm, hk, hl => by
    have hlt := hl t
    rw [streamOf_cons_self] at hlt
    obtain ⟨h1, fl', h2, h3⟩ := bprAct_nan hA sig half lr reg hm (hk t) hlt
    refine bprSchedule_nan hA sig half lr reg w _ _ (Function.update fl t fl') h1 (fun t' => ?_) fun t' => ?_
    · by_cases ht : t' = t
      · subst ht; simpa using h2
      · simpa [ht] using hk t'
    · by_cases ht : t' = t
      · subst ht; simpa using h3
      · have := hl t'
        rw [streamOf_cons_ne (Ne.symm ht)] at this
        simpa [ht] using this

/-- A NaN coordinate is still NaN after any epoch, with any number of threads and any interleaving. -/
theorem bprEpoch_nan (hA : A.Strict) (sig : V → V) (half lr reg : V) {verify : Bool} {rows : List (List Nat)} {factors : Nat}
    {e : BprEpoch Th} (he : IsSchedule (bprProg verify rows factors) e.draws e.schedule) (σ : Th → BprScratch V) {m : BprCell → V}
    {cell : BprCell} (hm : A.isNaN (m cell) = true) : A.isNaN ((A.bprEpoch sig half lr reg σ e m).2 cell) = true := by
  refine bprSchedule_nan hA sig half lr reg _ _ _ (fun _ => (false, false, false)) hm (fun t => ?_) fun t => ?_
  · exact ⟨fun h => absurd h Bool.false_ne_true, fun h => absurd h Bool.false_ne_true, fun h => absurd h Bool.false_ne_true⟩
  · rw [he t]
    exact bprKeeps_flatMap cell _ (fun d fa fb fc => bprKeeps_prog cell verify rows factors d fa fb fc) _ _ _ _

theorem bprEpochs_nan (hA : A.Strict) (sig : V → V) (half lr reg : V) {verify : Bool} {rows : List (List Nat)} {factors : Nat}
    (σ : Th → BprScratch V) {cell : BprCell} : ∀ (es : List (BprEpoch Th)) (m : BprCell → V),
    (∀ e ∈ es, IsSchedule (bprProg verify rows factors) e.draws e.schedule) →
    A.isNaN (m cell) = true → A.isNaN (A.bprEpochs sig half lr reg σ es m cell) = true
  | [], _, _, hm => hm
  | e :: es, m, he, hm =>
    bprEpochs_nan hA sig half lr reg σ es _ (fun e he' => he e (List.mem_cons_of_mem _ he'))
      (bprEpoch_nan hA sig half lr reg (he e (by simp)) σ hm)

/-- What the check looks at. -/
theorem bprCheck_iff (users items factors : Nat) (isNaN : V → Bool) (m : BprCell → V) :
    checkFitErrors (f := factors + 1) isNaN
      ⟨(List.range users).map fun u j => m (.user u j), (List.range items).map fun i j => m (.item i j)⟩ = .error .modelFitError ↔
    (∃ u < users, ∃ j ≤ factors, isNaN (m (.user u j)) = true) ∨ ∃ i < items, ∃ j ≤ factors, isNaN (m (.item i j)) = true := by
  have key : ∀ (n : Nat) (g : Nat → Nat → V), anyNaN (f := factors + 1) isNaN ((List.range n).map fun u j => g u j) = true ↔
      ∃ u < n, ∃ j ≤ factors, isNaN (g u j) = true := by
    intro n g
    unfold anyNaN
    simp only [List.any_eq_true, List.mem_map, List.mem_range, List.mem_finRange, true_and]
    constructor
    · rintro ⟨_, ⟨u, hu, rfl⟩, j, hj⟩
      exact ⟨u, hu, j, Nat.lt_succ_iff.mp j.2, hj⟩
    · rintro ⟨u, hu, j, hj, h⟩
      exact ⟨_, ⟨u, hu, rfl⟩, ⟨j, Nat.lt_succ_iff.mpr hj⟩, h⟩
  rw [← key users fun u j => m (.user u j), ← key items fun i j => m (.item i j)]
  unfold checkFitErrors
  cases anyNaN (f := factors + 1) isNaN ((List.range users).map fun u j => m (.user u j)) <;>
    cases anyNaN (f := factors + 1) isNaN ((List.range items).map fun i j => m (.item i j)) <;> simp

/-- **C75 is violated** by BPR: once a run has failed because of NaN, every later run on any data, with any parameters, any draws
and any number of threads raises `ModelFitError`. -/
theorem C75_bpr_violated (hA : A.Strict) {users items factors : Nat} {sig sig' : V → V} {half lr reg half' lr' reg' : V}
    {σ σ' : Th → BprScratch V} {epochs epochs' : List (BprEpoch Th)} {m : BprCell → V}
    (h : A.bprFit users items factors sig half lr reg σ epochs m = .error .modelFitError)
    {verify : Bool} {rows : List (List Nat)} (he : ∀ e ∈ epochs', IsSchedule (bprProg verify rows factors) e.draws e.schedule) :
    A.bprFit users items factors sig' half' lr' reg' σ' epochs' (A.bprEpochs sig half lr reg σ epochs m) =
      .error .modelFitError := by
  have hraise : ∀ {sig half lr reg} {σ : Th → BprScratch V} {epochs : List (BprEpoch Th)} {m : BprCell → V},
      A.bprFit users items factors sig half lr reg σ epochs m = .error .modelFitError ↔
      checkFitErrors (f := factors + 1) A.isNaN
        ⟨(List.range users).map fun u j => (A.bprEpochs sig half lr reg σ epochs m) (.user u j),
         (List.range items).map fun i j => (A.bprEpochs sig half lr reg σ epochs m) (.item i j)⟩ = .error .modelFitError := by
    intro sig half lr reg σ epochs m
    simp only [FloatOps.bprFit, bind, Except.bind]
    split
    · rename_i heq; rw [heq]; simp
    · rename_i heq; rw [heq]; simp [pure, Except.pure]
  rw [hraise, bprCheck_iff] at h ⊢
  rcases h with ⟨u, hu, j, hj, hn⟩ | ⟨i, hi, j, hj, hn⟩
  · exact Or.inl ⟨u, hu, j, hj, bprEpochs_nan hA sig' half' lr' reg' σ' epochs' _ he hn⟩
  · exact Or.inr ⟨i, hi, j, hj, bprEpochs_nan hA sig' half' lr' reg' σ' epochs' _ he hn⟩

end Bpr

/-! ## LMF -/

/-- There is a NaN outside column `k`. -/
def NanOutside (isNaN : V → Bool) (k : Fin f) (X : List (Vec f V)) : Prop :=
  ∃ (u : Nat) (x : Vec f V) (j : Fin f), X[u]? = some x ∧ j ≠ k ∧ isNaN (x j) = true

theorem NanOutside.hasNaN {isNaN : V → Bool} {k : Fin f} {X : List (Vec f V)} (h : NanOutside isNaN k X) : HasNaN isNaN X := by
  obtain ⟨u, x, j, hx, -, hn⟩ := h
  exact (hasNaN_iff isNaN X).mpr ⟨u, x, j, hx, hn⟩

theorem setColumn_nan {k : Fin f} {X : List (Vec f V)} (h : NanOutside A.isNaN k X) :
    NanOutside A.isNaN k (A.setColumn k X) := by
  obtain ⟨u, x, j, hx, hj, hn⟩ := h
  exact ⟨u, Function.update x k A.one, j, by simp [FloatOps.setColumn, hx], hj, by rw [Function.update_of_ne hj]; exact hn⟩

theorem setColumn_outside (hA : A.Strict) {k : Fin f} {X : List (Vec f V)} (h : HasNaN A.isNaN (A.setColumn k X)) :
    NanOutside A.isNaN k (A.setColumn k X) := by
  obtain ⟨u, x, j, hx, hn⟩ := (hasNaN_iff _ _).mp h
  refine ⟨u, x, j, hx, ?_, hn⟩
  rintro rfl
  unfold FloatOps.setColumn at hx
  rw [List.getElem?_map] at hx
  obtain ⟨y, -, rfl⟩ := Option.map_eq_some_iff.mp hx
  rw [Function.update_self, hA.one] at hn
  cases hn

theorem lmfUpdate_nan (hA : A.Strict) {sigm sqrt : V → V} {eps lr reg : V} {negProp : Int} {C : SpRows V} {Y : List (Vec f V)}
    {draws : Nat → Nat → Nat} {side side' : LmfSide f V} {k : Fin f}
    (h : A.lmfUpdate sigm sqrt eps lr reg negProp C Y draws side = .ok side') (hn : NanOutside A.isNaN k side.factors) :
    NanOutside A.isNaN k side'.factors := by
  obtain ⟨u, x, j, hx, hj, hn⟩ := hn
  unfold FloatOps.lmfUpdate at h
  cases hm : side.factors.zipIdx.mapM fun p => A.lmfRowAt sigm sqrt eps lr reg negProp C Y draws side.sums p.2 p.1 with
  | error e => rw [hm] at h; cases h
  | ok out =>
    rw [hm] at h
    rw [← Except.ok.inj h]
    obtain ⟨-, hrows⟩ := mapM_ok_iff hm
    obtain ⟨y, hy, hout⟩ := hrows u _ (zipIdx_get hx)
    refine ⟨u, y.1, j, by simp [hout], hj, ?_⟩
    unfold FloatOps.lmfRowAt at hy
    dsimp only at hy
    split at hy
    · rename_i row s _ _
      cases hpos : rowEntries .undefinedBehaviour Y row with
      | error e => rw [hpos] at hy; cases hy
      | ok pos =>
        rw [hpos] at hy
        cases hneg : lmfNegRows (lmfIndices C) Y (lmfRowDraws f negProp row.length (draws u)) with
        | error e => simp [hneg, bind, Except.bind] at hy
        | ok neg =>
          have hy : A.lmfRow sigm sqrt eps lr reg pos neg x s = y := by
            simpa [hneg, bind, Except.bind, pure, Except.pure] using hy
          rw [← hy]
          unfold FloatOps.lmfRow
          split
          · exact hn
          · exact hA.add _ _ (Or.inl hn)
    · cases hy

theorem lmfEpochs_nan (hA : A.Strict) {factors : Nat} {sigm sqrt : V → V} {eps lr reg : V} {negProp : Int} {C Ct : SpRows V} :
    ∀ (ds : List LmfDraws) (st st' : LmfState (factors + 2) V),
    A.lmfEpochs sigm sqrt eps lr reg negProp C Ct ds st = .ok st' →
    (NanOutside A.isNaN ⟨factors, by omega⟩ st.user.factors → NanOutside A.isNaN ⟨factors, by omega⟩ st'.user.factors) ∧
    (NanOutside A.isNaN ⟨factors + 1, by omega⟩ st.item.factors →
      NanOutside A.isNaN ⟨factors + 1, by omega⟩ st'.item.factors) ∧
    (ds ≠ [] → (HasNaN A.isNaN st'.user.factors → NanOutside A.isNaN ⟨factors, by omega⟩ st'.user.factors) ∧
      (HasNaN A.isNaN st'.item.factors → NanOutside A.isNaN ⟨factors + 1, by omega⟩ st'.item.factors))
  | [], st, st', h => by
    rw [← Except.ok.inj h]
    exact ⟨id, id, fun h => absurd rfl h⟩
  | d :: ds, st, st', h => by
    unfold FloatOps.lmfEpochs at h
    cases he : A.lmfEpoch sigm sqrt eps lr reg negProp C Ct st d with
    | error e => rw [he] at h; cases h
    | ok st1 =>
      rw [he] at h
      have h : A.lmfEpochs sigm sqrt eps lr reg negProp C Ct ds st1 = .ok st' := h
      obtain ⟨h1, h2, h3⟩ := lmfEpochs_nan hA ds st1 st' h
      unfold FloatOps.lmfEpoch at he
      cases hu : A.lmfUpdate sigm sqrt eps lr reg negProp C st.item.factors d.user st.user with
      | error e => rw [hu] at he; cases he
      | ok user =>
        rw [hu] at he
        simp only [bind, Except.bind] at he
        cases hi : A.lmfUpdate sigm sqrt eps lr reg negProp Ct (A.setColumn ⟨factors, by omega⟩ user.factors) d.item st.item with
        | error e => rw [hi] at he; cases he
        | ok item =>
          rw [hi] at he
          have he := Except.ok.inj he
          subst he
          refine ⟨fun hn => h1 (setColumn_nan (lmfUpdate_nan hA hu hn)), fun hn => h2 (setColumn_nan (lmfUpdate_nan hA hi hn)), fun _ => ?_⟩
          cases ds with
          | nil =>
            rw [← Except.ok.inj h]
            exact ⟨fun hn => setColumn_outside hA hn, fun hn => setColumn_outside hA hn⟩
          | cons d' ds => exact h3 (List.cons_ne_nil _ _)

/-- **C75 is violated** by LMF: once a run of at least one epoch has left NaN in the factors (and so has failed), no later run
returns, on whatever data and with whatever parameters and draws. -/
theorem C75_lmf_violated (hA : A.Strict) {factors : Nat} {sigm sqrt sigm' sqrt' : V → V} {eps lr reg eps' lr' reg' : V}
    {negProp negProp' : Int} {C Ct C' : SpRows V} {d : LmfDraws} {ds : List LmfDraws} {st st' : LmfState (factors + 2) V}
    (h : A.lmfEpochs sigm sqrt eps lr reg negProp C Ct (d :: ds) st = .ok st')
    (hraise : checkFitErrors A.isNaN (⟨st'.user.factors, st'.item.factors⟩ : Factors (factors + 2) V) = .error .modelFitError)
    (cols' : Nat) (draws : List LmfDraws) (m : Factors (factors + 2) V) :
    A.lmfRefit sigm' sqrt' eps' lr' reg' negProp' cols' C' draws ⟨st'.user.factors, st'.item.factors⟩ ≠ .ok m := by
  obtain ⟨-, -, h3⟩ := lmfEpochs_nan hA (d :: ds) st st' h
  obtain ⟨hu, hi⟩ := h3 (List.cons_ne_nil _ _)
  intro hok
  unfold FloatOps.lmfRefit at hok
  cases he : A.lmfEpochs sigm' sqrt' eps' lr' reg' negProp' C' (transposeRows cols' C') draws
      ⟨⟨st'.user.factors, List.replicate C'.length fun _ => A.zero⟩, ⟨st'.item.factors, List.replicate cols' fun _ => A.zero⟩⟩ with
  | error e => rw [he] at hok; cases hok
  | ok st2 =>
    rw [he] at hok
    simp only [bind, Except.bind, checkFitErrors] at hok
    obtain ⟨k1, k2, -⟩ := lmfEpochs_nan hA draws _ st2 he
    have hnan : (anyNaN A.isNaN st2.user.factors || anyNaN A.isNaN st2.item.factors) = true := by
      rw [Bool.or_eq_true, anyNaN_iff, anyNaN_iff]
      simp only [checkFitErrors] at hraise
      split_ifs at hraise with hc
      · rw [Bool.or_eq_true, anyNaN_iff, anyNaN_iff] at hc
        rcases hc with hc | hc
        · exact Or.inl (k1 (hu hc)).hasNaN
        · exact Or.inr (k2 (hi hc)).hasNaN
    rw [if_pos hnan] at hok
    cases hok

/-! ## Examples -/

/-- Did it raise `ModelFitError`? -/
def raisedFitError {α : Type} : Except Err α → Bool
  | .error .modelFitError => true
  | _ => false

/-- A run on a matrix with a NaN in it fails; so does the next one, on a matrix without; from other item factors it succeeds. -/
example :
    let fit := fun (C : SpRows (Option Rat)) (m : Factors 1 (Option Rat)) =>
      (nanOps Rat).alsFit ((nanOps Rat).leastSquaresCG (some (1 / 1000)) 3) 2 C (some (1 / 10)) 1 m
    let left : Factors 1 (Option Rat) := ⟨[fun _ => none, fun _ => none], [fun _ => none, fun _ => none]⟩
    raisedFitError (fit [[(0, none)], [(1, some 2)]] ⟨[fun _ => some 1, fun _ => some 2], [fun _ => some 1, fun _ => some 3]⟩) = true ∧
    raisedFitError (fit [[(0, some 1)], [(1, some 2)]] left) = true ∧
    raisedFitError (fit [[(0, some 1)], [(1, some 2)]]
      ⟨[fun _ => some 1, fun _ => some 2], [fun _ => some 1, fun _ => some 3]⟩) = false := by
  decide +kernel

/-- The hypotheses of `C75_cg_violated` are met by a run on a matrix with a NaN. -/
example : ∃ (m : Factors 1 (Option Rat)) (C' : SpRows (Option Rat)),
    TrainsTo (fun _ => alsIteration ((nanOps Rat).leastSquaresCG (some 1) 3) [[(0, none)]] (transposeRows 1 [[(0, none)]])
      (some 2)) 1 ⟨[fun _ => some 1], [fun _ => some 1]⟩ m ∧
    Spec.FitsModel m.user.length m.item.length C' ∧ Spec.HasEntry C' := by
  obtain ⟨m', hm'⟩ := cgEpochs_total (A := nanOps Rat) (some 1) (some 2) 3 (C := [[(0, none)]]) 1 0
    (⟨[fun _ => some 1], [fun _ => some 1]⟩ : Factors 1 (Option Rat)) ⟨rfl, by simp⟩
  obtain ⟨states, h0, h1, hs⟩ := (trainEpochs_iff _ 0 1 _ _).mp hm'
  have hX := hs 0 Nat.one_pos
  refine ⟨m', [[(0, some 1)]], ⟨states, h0, h1, fun i hi => by
    have := hs i hi
    exact this⟩, ?_, ⟨[(0, some 1)], by simp, by simp⟩⟩
  rw [h0, h1] at hX
  unfold alsIteration at hX
  cases hX1 : (nanOps Rat).leastSquaresCG (f := 1) (some 1) 3 [[(0, none)]] [fun _ => some 1] [fun _ => some 1]
      (some 2) with
  | error e => simp [hX1, bind, Except.bind] at hX
  | ok X =>
    cases hY : (nanOps Rat).leastSquaresCG (f := 1) (some 1) 3 (transposeRows 1 [[(0, none)]]) [fun _ => some 1] X
        (some 2) with
    | error e => simp [hX1, bind, Except.bind, hY] at hX
    | ok Y =>
      have hm : m' = ⟨X, Y⟩ := by simpa [hX1, hY, bind, Except.bind, pure, Except.pure, eq_comm] using hX
      subst hm
      rw [floatCG_length hX1, floatCG_length hY]
      exact ⟨rfl, by simp⟩

/-- BPR: a model whose only user factor is NaN, one draw of a triple. -/
example :
    let run := fun (m : BprCell → Option Rat) => (nanOps Rat).bprFit (Th := Unit) 1 2 1 (fun _ => some (1 / 2)) (some (1 / 2)) (some 1)
      (some (1 / 10)) (fun _ => ⟨none, none, none, none, none, none, 0, 0⟩)
      [⟨fun _ => [(0, 1)], (bprUpdateProg 1 ⟨0, 0, 1⟩).map fun i => ((), i)⟩] m
    raisedFitError (run fun c => if c = .user 0 0 then none else some 1) = true ∧ raisedFitError (run fun _ => some 1) = false := by
  decide +kernel

/-- GPU: a NaN in one item's factor makes the other user's factor zero, too. -/
example :
    let C : SpRows (Option Rat) := [[(0, some 1)], [(1, some 2)]]
    ((nanOps Rat).gpuAlsFit (some (1 / 1000)) (some (1 / 10)) 3 2 C 1
      (⟨[fun _ => some 1, fun _ => some 2], [fun _ => none, fun _ => some 3]⟩ : Factors 1 (Option Rat))).toOption.map
        (fun m => m.user.map (· 0)) = some [some 0, some 0] := by
  decide +kernel

end Implicit
