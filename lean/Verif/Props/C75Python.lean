import Verif.Props.C75
/-!
# C75 — training again after a failed run: the python implementations (`use_native=False`) and BPR on the GPU
-/

set_option linter.unusedSectionVars false

namespace Implicit

open Spec (HasNaN TrainsTo)

variable {V : Type} {f : Nat} {A : FloatOps V}

theorem alsIteration_split {solver : SweepFn f V} {C Ct : SpRows V} {reg : V} {m m' : Factors f V}
    (h : alsIteration solver C Ct reg m = .ok m') :
    solver C m.user m.item reg = .ok m'.user ∧ solver Ct m.item m'.user reg = .ok m'.item := by
  unfold alsIteration at h
  cases hX : solver C m.user m.item reg with
  | error e => rw [hX] at h; cases h
  | ok X =>
    rw [hX] at h
    cases hY : solver Ct m.item X reg with
    | error e => simp [hY, bind, Except.bind] at h
    | ok Y =>
      have hm : m' = ⟨X, Y⟩ := by simpa [hY, bind, Except.bind, pure, Except.pure, eq_comm] using h
      subst hm
      exact ⟨rfl, hY⟩

/-! ## Conjugate gradient -/

theorem cgPy_keeps (hA : A.Strict) {tol : V} {steps : Nat} {C : SpRows V} {X Y : List (Vec f V)} {reg : V} {X' : List (Vec f V)}
    (h : A.leastSquaresCGPy tol steps C X Y reg = .ok X') :
    X'.length = X.length ∧ (HasNaN A.isNaN X → HasNaN A.isNaN X') := by
  obtain ⟨hl, hrows⟩ := mapM_ok_iff h
  rw [List.length_zipIdx] at hl
  refine ⟨hl, ?_⟩
  rintro ⟨u, hu, j, hj⟩
  obtain ⟨y, hy, hy'⟩ := hrows u (X[u], u) (zipIdx_get (List.getElem?_eq_getElem hu))
  refine (hasNaN_iff _ _).mpr ⟨u, y, j, hy', ?_⟩
  dsimp only at hy
  cases hc : C[u]? with
  | none => rw [hc] at hy; cases hy
  | some row =>
    rw [hc] at hy
    cases hes : rowEntries .indexError Y row with
    | error e => simp [hes, bind, Except.bind] at hy
    | ok es =>
      simp only [hes, bind, Except.bind, pure, Except.pure] at hy
      rw [← Except.ok.inj hy]
      exact cgSolve_keeps_nan hA hj tol steps es

theorem cgPy_epochs_nan (hA : A.Strict) {tol reg : V} {steps n : Nat} {C Ct : SpRows V} {m m' : Factors f V}
    (hnan : HasNaN A.isNaN m.user ∨ HasNaN A.isNaN m.item)
    (ht : TrainsTo (fun _ => alsIteration (A.leastSquaresCGPy tol steps) C Ct reg) n m m') :
    HasNaN A.isNaN m'.user ∨ HasNaN A.isNaN m'.item := by
  obtain ⟨states, h0, hn, hs⟩ := ht
  have key : ∀ k ≤ n, HasNaN A.isNaN (states k).user ∨ HasNaN A.isNaN (states k).item := by
    intro k
    induction k with
    | zero => intro _; rw [h0]; exact hnan
    | succ k ih =>
      intro hk
      obtain ⟨h1, h2⟩ := alsIteration_split (hs k (by omega))
      exact (ih (by omega)).imp (cgPy_keeps hA h1).2 (cgPy_keeps hA h2).2
  rw [← hn]
  exact key n (le_refl n)

theorem cgPy_total (tol : V) (steps : Nat) {C : SpRows V} {X Y : List (Vec f V)} (reg : V)
    (h : Spec.FitsModel X.length Y.length C) : ∃ X', A.leastSquaresCGPy tol steps C X Y reg = .ok X' := by
  refine mapM_returns fun xu hxu => ?_
  obtain ⟨k, hk⟩ := List.mem_iff_getElem?.mp hxu
  rw [List.getElem?_zipIdx] at hk
  obtain ⟨x, hx, rfl⟩ := Option.map_eq_some_iff.mp hk
  have hu : 0 + k < C.length := by rw [h.rows, Nat.zero_add]; exact (List.getElem?_eq_some_iff.mp hx).1
  dsimp only
  rw [List.getElem?_eq_getElem hu]
  obtain ⟨es, hes⟩ := rowEntries_total (err := .indexError) (h.columns _ (List.getElem_mem hu))
  exact ⟨(A.cgSolve (A.regularised (A.gram Y) reg) tol steps es x).1, by simp only [hes, bind, Except.bind, pure, Except.pure]⟩

theorem cgPyEpochs_total (hA : A.Strict) (tol reg : V) (steps : Nat) {C : SpRows V} : ∀ (n i : Nat) (m : Factors f V),
    Spec.FitsModel m.user.length m.item.length C →
    ∃ m', trainEpochs (fun _ => alsIteration (A.leastSquaresCGPy tol steps) C (transposeRows m.item.length C) reg) i n m = .ok m'
  | 0, _, m, _ => ⟨m, rfl⟩
  | n + 1, i, m, h => by
    obtain ⟨X, hX⟩ := cgPy_total (A := A) tol steps reg h
    have hXl := (cgPy_keeps hA hX).1
    obtain ⟨Y, hY⟩ := cgPy_total (A := A) tol steps reg (X := m.item) (Y := X) (by rw [hXl]; exact transpose_fits h)
    have hYl := (cgPy_keeps hA hY).1
    obtain ⟨m', hm'⟩ := cgPyEpochs_total hA tol reg steps n (i + 1) ⟨X, Y⟩ (by dsimp only; rw [hXl, hYl]; exact h)
    refine ⟨m', ?_⟩
    dsimp only at hm'
    rw [hYl] at hm'
    simp only [trainEpochs, alsIteration, hX, hY, bind, Except.bind, pure, Except.pure]
    exact hm'

/-- **C75 is violated** by the python conjugate gradient solver: a coordinate that is NaN stays NaN, so that after a run that failed
because of NaN no later run on any data returns, and every run on data that fits the model, even without a single entry, raises
`ModelFitError`. -/
theorem C75_python_cg_violated (hA : A.Strict) {tol tol' reg reg' : V} {steps steps' cols n : Nat} {C : SpRows V}
    {init m : Factors f V}
    (ht : TrainsTo (fun _ => alsIteration (A.leastSquaresCGPy tol steps) C (transposeRows cols C) reg) n init m)
    (h : A.alsFit (A.leastSquaresCGPy tol steps) cols C reg n init = .error .modelFitError) (C' : SpRows V) (n' : Nat) :
    (∀ (cols' : Nat) (m' : Factors f V), A.alsFit (A.leastSquaresCGPy tol' steps') cols' C' reg' n' m ≠ .ok m') ∧
    (Spec.FitsModel m.user.length m.item.length C' →
      A.alsFit (A.leastSquaresCGPy tol' steps') m.item.length C' reg' n' m = .error .modelFitError) := by
  have hnan := raised_nan ht h
  refine ⟨fun cols' m' hok => ?_, fun hfit => ?_⟩
  · obtain ⟨h1, h2, h3⟩ := (C21_cpu_exact _ _ _ _ _).mp hok
    exact (cgPy_epochs_nan hA hnan h1).elim h2 h3
  · obtain ⟨m', hm'⟩ := cgPyEpochs_total hA tol' reg' steps' n' 0 m hfit
    have key := trainEpochs_iff (fun _ => alsIteration (A.leastSquaresCGPy tol' steps') C' (transposeRows m.item.length C') reg')
      0 n' m m'
    exact (C21_cpu_raises _ _ _ _ _ hm').mpr (cgPy_epochs_nan hA hnan (key.mp hm'))

/-! ## Solving the linear equations -/

theorem leastSquaresPy_nan (hA : A.Strict) {solve : Mat f V → Vec f V → Option (Vec f V)} (hp : PosvStrict A.isNaN solve)
    {C : SpRows V} {X Y : List (Vec f V)} {reg : V} {X' : List (Vec f V)} (h : A.leastSquaresPy solve C X Y reg = .ok X') :
    X'.length = X.length ∧ (HasNaN A.isNaN Y → X ≠ [] → HasNaN A.isNaN X') := by
  obtain ⟨hl, hrows⟩ := mapM_ok_iff h
  rw [List.length_range] at hl
  refine ⟨hl, ?_⟩
  rintro ⟨i, hi, a, ha⟩ hne
  have hu : 0 < X.length := List.length_pos_iff.mpr hne
  obtain ⟨x, hx, hx'⟩ := hrows 0 0 (List.getElem?_range hu)
  cases hc : C[0]? with
  | none => rw [hc] at hx; cases hx
  | some row =>
    rw [hc] at hx
    dsimp only at hx
    unfold FloatOps.leastSquaresPyRow at hx
    cases hes : rowEntries .indexError Y row with
    | error e => rw [hes] at hx; cases hx
    | ok es =>
      rw [hes] at hx
      simp only [bind, Except.bind] at hx
      have hG := regularised_nan hA (gram_nan hA (List.getElem_mem hi) ha a) reg
      have hM := accumulatePy_nan hA es (A.regularised (A.gram Y) reg, fun _ => A.zero) hG
      split at hx
      · rename_i y hy
        obtain ⟨j, hj⟩ := hp _ _ ⟨a, hM⟩ y hy
        rw [Except.ok.inj hx] at hj
        exact (hasNaN_iff _ _).mpr ⟨0, x, j, hx', hj⟩
      · cases hx

/-- **C75 is violated** by the python solver of linear equations: after a run that failed because of NaN, no run of a model with users
and items returns, whatever the data (even without a single entry). -/
theorem C75_python_solve_violated (hA : A.Strict) {solve solve' : Mat f V → Vec f V → Option (Vec f V)}
    (hp : PosvStrict A.isNaN solve) (hp' : PosvStrict A.isNaN solve') {cols cols' : Nat} {C C' : SpRows V} {reg reg' : V}
    {n n' : Nat} {init m : Factors f V}
    (ht : TrainsTo (fun _ => alsIteration (A.leastSquaresPy solve) C (transposeRows cols C) reg) (n + 1) init m)
    (h : A.alsFit (A.leastSquaresPy solve) cols C reg (n + 1) init = .error .modelFitError)
    (hu : m.user ≠ []) (hi : m.item ≠ []) (m' : Factors f V) :
    A.alsFit (A.leastSquaresPy solve') cols' C' reg' n' m ≠ .ok m' := by
  intro hok
  obtain ⟨h1, h2, h3⟩ := (C21_cpu_exact _ _ _ _ _).mp hok
  have hitem : HasNaN A.isNaN m.item := by
    rcases raised_nan ht h with hu' | hi'
    · obtain ⟨states, -, hm, hs⟩ := ht
      have := hs n (Nat.lt_succ_self n)
      rw [hm] at this
      obtain ⟨-, p2⟩ := alsIteration_split this
      obtain ⟨hl, hy⟩ := leastSquaresPy_nan hA hp p2
      refine hy hu' fun h0 => hi ?_
      rw [← List.length_eq_zero_iff, hl, h0]
      rfl
    · exact hi'
  obtain ⟨states, h0, hn, hs⟩ := h1
  have key : ∀ k ≤ n', HasNaN A.isNaN (states k).item ∧ (states k).user ≠ [] ∧ (states k).item ≠ [] := by
    intro k
    induction k with
    | zero => intro _; rw [h0]; exact ⟨hitem, hu, hi⟩
    | succ k ih =>
      intro hk
      obtain ⟨i1, i2, i3⟩ := ih (by omega)
      obtain ⟨p1, p2⟩ := alsIteration_split (hs k (by omega))
      obtain ⟨l1, n1⟩ := leastSquaresPy_nan hA hp' p1
      obtain ⟨l2, n2⟩ := leastSquaresPy_nan hA hp' p2
      refine ⟨n2 (n1 i1 i2) i3, fun h => i2 ?_, fun h => i3 ?_⟩
      · rw [← List.length_eq_zero_iff, ← l1, h]; rfl
      · rw [← List.length_eq_zero_iff, ← l2, h]; rfl
  rw [← hn] at h3
  exact h3 (key n' (le_refl n')).1

/-! ## BPR on the GPU -/

theorem gpuBprAct_nan (hA : A.Strict) (sig : V → V) (half lr reg : V) (cols : Nat) {cell : BprCell} (i : GpuBprInstr V)
    (s : GpuBprScratch V) {m : BprCell → V} (hm : A.isNaN (m cell) = true) :
    A.isNaN ((A.gpuBprAct sig half lr reg cols i s m).2 cell) = true := by
  have hstore : ∀ (c : BprCell) (w : V), A.isNaN (Function.update m c (A.add (m c) w) cell) = true := fun c w =>
    update_nan hm fun h => hA.add _ _ (Or.inl (h ▸ hm))
  cases i <;> simp only [FloatOps.gpuBprAct]
  case storeLiked t l => exact hstore _ _
  case storeDisliked t l => exact hstore _ _
  case storeUser t l =>
    split
    · exact hstore _ _
    · exact hm
  all_goals exact hm

theorem gpuBprSchedule_nan {Th : Type} [DecidableEq Th] (hA : A.Strict) (sig : V → V) (half lr reg : V) (cols : Nat) {cell : BprCell} :
    ∀ (w : List (Th × GpuBprInstr V)) (σ : Th → GpuBprScratch V) (m : BprCell → V), A.isNaN (m cell) = true →
    A.isNaN ((execInterleaved (A.gpuBprAct sig half lr reg cols) w σ m).2 cell) = true
  | [], _, _, hm => hm
  | (_, i) :: w, _, _, hm => gpuBprSchedule_nan hA sig half lr reg cols w _ _ (gpuBprAct_nan hA sig half lr reg cols i _ hm)

/-- **C75 is violated** by BPR on the GPU: a factor that is NaN is NaN after every later `fit`, on any data, with any parameters, draws
and interleaving of threads, and nothing raises. -/
theorem C75_gpu_bpr_violated {B : Type} [DecidableEq B] {cols : Nat} (hA : A.Strict) (sig : V → V) (half lr reg : V)
    (σ : B × Fin cols → GpuBprScratch V) {cell : BprCell} : ∀ (es : List (GpuBprEpoch B V cols)) (m : BprCell → V),
    A.isNaN (m cell) = true → A.isNaN (A.gpuBprEpochs sig half lr reg σ es m cell) = true
  | [], _, hm => hm
  | e :: es, m, hm => C75_gpu_bpr_violated hA sig half lr reg σ es _
      (gpuBprSchedule_nan hA sig half lr reg cols e.schedule _ m hm)

/-! ## Examples -/

/-- A division where both operands are known and the divisor is not zero; everything else is NaN. -/
def nanDivide (M : Mat 1 (Option Rat)) (b : Vec 1 (Option Rat)) : Option (Vec 1 (Option Rat)) :=
  some fun _ => (nanOps Rat).div (b 0) (M 0 0)

theorem nanDivide_strict : PosvStrict (f := 1) (nanOps Rat).isNaN nanDivide := by
  rintro M b ⟨a, ha⟩ x hx
  have ha0 : a = 0 := Subsingleton.elim _ _
  subst ha0
  cases hx
  exact ⟨0, (nanOps_strict Rat).div _ _ (Or.inr ha)⟩

/-- Python solvers: a run on data with a NaN raises, a later run without any entry raises again, the same run of a new model does
not. -/
example :
    let ok : Factors 1 (Option Rat) := ⟨[fun _ => some 1, fun _ => some 2], [fun _ => some 1, fun _ => some 3]⟩
    let left : Factors 1 (Option Rat) := ⟨[fun _ => none, fun _ => some 2], [fun _ => none, fun _ => none]⟩
    let cg := (nanOps Rat).leastSquaresCGPy (f := 1) (some (1 / 1000)) 3
    let solve := (nanOps Rat).leastSquaresPy nanDivide
    let fit := fun (s : SweepFn 1 (Option Rat)) (C : SpRows (Option Rat)) (m : Factors 1 (Option Rat)) =>
      (nanOps Rat).alsFit s 2 C (some (1 / 10)) 1 m
    raisedFitError (fit cg [[(0, none)], [(1, some 2)]] ok) = true ∧ raisedFitError (fit cg [[], []] left) = true ∧
    raisedFitError (fit cg [[], []] ok) = false ∧
    raisedFitError (fit solve [[(0, none)], [(1, some 2)]] ok) = true ∧ raisedFitError (fit solve [[], []] left) = true ∧
    raisedFitError (fit solve [[], []] ok) = false := by
  decide +kernel

/-- GPU BPR: one NaN among the factors of a user spreads to the items of that user and stays. -/
example :
    let e : GpuBprEpoch Unit (Option Rat) 1 := ⟨fun _ => [(0, 1)], fun _ _ _ => none,
      (gpuBprProg false [[0], [1]] (0, (0, 1), (none : Option Rat))).map fun i => (((), 0), i)⟩
    let m := (nanOps Rat).gpuBprEpochs (fun x => x) (some (1 / 2)) (some 1) (some (1 / 10))
      (fun _ => ⟨none, none, none, none, 0, 0⟩) [e] (fun c => if c = .user 0 0 then none else some 1)
    (m (.user 0 0), m (.item 0 0), m (.item 1 0), m (.user 1 0)) = (none, none, none, some 1) := by
  decide +kernel

end Implicit
