import Verif.Model.FloatTraining
/-!
# Training with NaN: the code over a field is the code of the other files; NaN spreads
-/

set_option linter.unusedSectionVars false

namespace Implicit

/-! ## The operations of a field -/

section Exact

variable {R : Type} [LinearOrder R] [Field R] {f : Nat}

theorem foldl_add_sum {α : Type} (g : α → R) : ∀ (l : List α) (s : R),
    l.foldl (fun s a => s + g a) s = s + (l.map g).sum
  | [], s => by simp
  | a :: l, s => by
    rw [List.foldl_cons, foldl_add_sum g l, List.map_cons, List.sum_cons, add_assoc]

theorem exact_dot (x y : Vec f R) : (exactOps R).dot x y = dot x y := by
  unfold FloatOps.dot dot
  rw [Fin.sum_univ_def]
  exact (foldl_add_sum _ _ _).trans (zero_add _)

theorem exact_mulVec (G : Mat f R) (x : Vec f R) : (exactOps R).mulVec G x = mulVec G x :=
  funext fun a => exact_dot (G a) x

theorem exact_gram (Y : List (Vec f R)) : (exactOps R).gram Y = gram Y := by
  funext a b
  exact (foldl_add_sum (fun y : Vec f R => y a * y b) _ _).trans (zero_add _)

theorem exact_regularised (G : Mat f R) (reg : R) : (exactOps R).regularised G reg = regularised G reg := rfl

theorem exact_axpyVec (t : R) (y r : Vec f R) : (exactOps R).axpyVec t y r = axpy t y r := rfl

theorem exact_negOne : (exactOps R).negOne = (-1 : R) := zero_sub 1

theorem exact_cgResidual (G : Mat f R) (es : List (Vec f R × R)) (x : Vec f R) :
    (exactOps R).cgResidual G es x = cgResidual G es x := by
  unfold FloatOps.cgResidual cgResidual
  simp only [exact_mulVec, exact_dot, exact_axpyVec, exact_negOne]
  simp only [exactOps, decide_eq_true_eq, neg_one_mul]

theorem exact_cgApply (G : Mat f R) (es : List (Vec f R × R)) (p : Vec f R) :
    (exactOps R).cgApply G es p = cgApply G es p := by
  unfold FloatOps.cgApply cgApply
  simp only [exact_mulVec, exact_dot, exact_axpyVec, exact_negOne]
  simp only [exactOps, decide_eq_true_eq, neg_one_mul]

theorem exact_cgStep (apply : Vec f R → Vec f R) (s : CG f R) : (exactOps R).cgStep apply s = cgStep apply s := by
  unfold FloatOps.cgStep cgStep
  simp only [exact_dot, exact_axpyVec, exact_negOne]
  simp only [exactOps]

theorem exact_cgLoop (apply : Vec f R → Vec f R) (tol : R) : ∀ (n : Nat) (s : CG f R),
    ((exactOps R).cgLoop apply tol n s).1 = cgLoop apply tol n s
  | 0, _ => rfl
  | n + 1, s => by
    unfold FloatOps.cgLoop cgLoop
    simp only [exact_cgStep]
    simp only [exactOps, decide_eq_true_eq]
    split
    · rfl
    · exact exact_cgLoop apply tol n _

theorem exact_cgSolve (G : Mat f R) (tol : R) (steps : Nat) (es : List (Vec f R × R)) (x : Vec f R) :
    ((exactOps R).cgSolve G tol steps es x).1 = cgSolve G tol steps es x := by
  unfold FloatOps.cgSolve cgSolve
  simp only [exact_cgResidual, exact_dot, show (exactOps R).cgApply G es = cgApply G es from funext (exact_cgApply G es)]
  by_cases h : dot (cgResidual G es x) (cgResidual G es x) < tol
  · rw [if_pos (show (exactOps R).lt _ tol = true from decide_eq_true h), if_pos h]
  · rw [if_neg (show ¬ (exactOps R).lt _ tol = true from fun e => h (of_decide_eq_true e)), if_neg h]
    exact exact_cgLoop _ _ _ _

theorem exact_cgRow (G : Mat f R) (tol : R) (steps : Nat) (Y : List (Vec f R)) (row : List (Nat × R)) (x : Vec f R) :
    (exactOps R).cgRow G tol steps Y row x = cgRow G tol steps Y row x := by
  unfold FloatOps.cgRow cgRow
  simp only [exact_cgSolve]
  rfl

/-- Over a field the native conjugate gradient solver is `leastSquaresCG`. -/
theorem exact_leastSquaresCG (tol : R) (steps : Nat) :
    (exactOps R).leastSquaresCG (f := f) tol steps = leastSquaresCG tol steps := by
  funext C X Y reg
  unfold FloatOps.leastSquaresCG leastSquaresCG
  simp only [exact_cgRow, exact_gram, exact_regularised]
  rfl

/-- Over a field the python conjugate gradient solver is `leastSquaresCGPy`. -/
theorem exact_leastSquaresCGPy (tol : R) (steps : Nat) :
    (exactOps R).leastSquaresCGPy (f := f) tol steps = leastSquaresCGPy tol steps := by
  funext C X Y reg
  unfold FloatOps.leastSquaresCGPy leastSquaresCGPy
  simp only [exact_cgSolve, exact_gram, exact_regularised]
  rfl

theorem exact_accumulate (s : Mat f R × Vec f R) (e : Vec f R × R) :
    (exactOps R).accumulate s e = accumulate s e := by
  unfold FloatOps.accumulate accumulate
  simp only [exact_axpyVec, exact_negOne]
  simp only [exactOps, decide_eq_true_eq, neg_one_mul]
  rfl

/-- Over a field the Cholesky solver is `leastSquares`. -/
theorem exact_leastSquares (S : Solver f R) : (exactOps R).leastSquares S.solve = leastSquares S := by
  funext C X Y reg
  unfold FloatOps.leastSquares leastSquares leastSquaresNative FloatOps.leastSquaresRow leastSquaresRow linearEquation
  simp only [exact_gram, exact_regularised,
    show (exactOps R).accumulate (f := f) = accumulate from funext fun s => funext (exact_accumulate s)]
  rfl

theorem exact_accumulatePy (s : Mat f R × Vec f R) (e : Vec f R × R) :
    (exactOps R).accumulatePy s e = accumulate s e := by
  unfold FloatOps.accumulatePy accumulate
  simp only [exact_negOne]
  by_cases h : 0 < e.2
  · simp only [exactOps, h, decide_true, if_true]
    refine Prod.ext (funext fun a => funext fun b => ?_) rfl
    simp only [mul_assoc]
  · simp only [exactOps, h, decide_false, if_false, Bool.false_eq_true]
    refine Prod.ext (funext fun a => funext fun b => ?_) rfl
    simp only [mul_neg_one, mul_assoc]

/-- Over a field the python solver is `leastSquaresPy`. -/
theorem exact_leastSquaresPy (S : Solver f R) : (exactOps R).leastSquaresPy S.solve = leastSquaresPy S := by
  funext C X Y reg
  unfold FloatOps.leastSquaresPy leastSquaresPy FloatOps.leastSquaresPyRow leastSquaresPyRow linearEquation
  simp only [exact_gram, exact_regularised,
    show (exactOps R).accumulatePy (f := f) = accumulate from funext fun s => funext (exact_accumulatePy s)]
  rfl

/-- Over a field there is nothing to check at the end of `fit`. -/
theorem exact_alsFit (solver : SweepFn f R) (cols : Nat) (C : SpRows R) (reg : R) (n : Nat) (init : Factors f R) :
    (exactOps R).alsFit solver cols C reg n init =
      trainEpochs (fun _ => alsIteration solver C (transposeRows cols C) reg) 0 n init := by
  have h : ∀ X : List (Vec f R), anyNaN (exactOps R).isNaN X = false := fun X =>
    List.any_eq_false.mpr fun x _ => by simp [exactOps]
  unfold FloatOps.alsFit cpuFit checkFitErrors
  simp only [h, Bool.or_self, Bool.false_eq_true, if_false]
  generalize trainEpochs _ 0 n init = r
  cases r <;> rfl

/-- Over a field the fallback of the GPU kernel is never used. -/
theorem exact_gpuRow (G : Mat f R) (tol : R) (steps : Nat) (Y : List (Vec f R)) (row : List (Nat × R)) (x : Vec f R) :
    (exactOps R).gpuRow G tol steps Y row x = cgRow G tol steps Y row x := by
  unfold FloatOps.gpuRow cgRow
  have h : ∀ v : R, (exactOps R).isNaN v = false := fun _ => rfl
  simp only [h, Bool.false_eq_true, if_false, exact_cgSolve]
  rfl

/-- Over a field an iteration of GPU ALS is `gpuIteration`. -/
theorem exact_gpuIteration (tol : R) (p : GpuALSParams R) (users items : Nat) (Cui Ciu : SpRows R) (m : Factors f R) :
    (exactOps R).gpuIteration tol p.regularization p.cgSteps users items Cui Ciu m =
      gpuIteration tol p users items Cui Ciu m := by
  unfold FloatOps.gpuIteration gpuIteration FloatOps.gpuLeastSquares gpuLeastSquares
  simp only [exact_gpuRow, exact_gram, exact_regularised]
  rfl

theorem trainEpochs_start {V : Type} {g : Factors f V → Except Err (Factors f V)} (n i j : Nat) (m : Factors f V) :
    trainEpochs (fun _ => g) i n m = trainEpochs (fun _ => g) j n m := by
  induction n generalizing i j m with
  | zero => rfl
  | succ n ih =>
    unfold trainEpochs
    exact congrArg _ (funext fun m => ih (i + 1) (j + 1) m)

/-- Over a field `fit` of GPU ALS is `gpuAlsFit`. -/
theorem exact_gpuAlsFit (tol : R) (p : GpuALSParams R) (cols : Nat) (C : SpRows R) (init : Factors f R) :
    (exactOps R).gpuAlsFit tol p.regularization p.cgSteps cols C p.iterations init = gpuAlsFit tol p cols C init := by
  unfold FloatOps.gpuAlsFit gpuFit gpuAlsFit
  generalize p.iterations = n
  have : ∀ (n i : Nat) (m : Factors f R),
      trainEpochs (fun _ => (exactOps R).gpuIteration tol p.regularization p.cgSteps C.length cols C (transposeRows cols C)) i n m =
        gpuIterations tol p C.length cols C (transposeRows cols C) n m := by
    intro n
    induction n with
    | zero => intro i m; rfl
    | succ n ih =>
      intro i m
      unfold trainEpochs gpuIterations
      rw [exact_gpuIteration]
      exact congrArg _ (funext fun m => ih (i + 1) m)
  exact this n 0 init

theorem exact_bprAct (sig : R → R) (lr reg : R) :
    (exactOps R).bprAct sig (1 / 2) lr reg = bprAct sig lr reg := by
  funext i s m
  cases i <;> simp only [FloatOps.bprAct, bprAct, exact_negOne] <;> simp only [exactOps, decide_eq_true_eq, neg_one_mul]

/-- Over a field the epochs of BPR are `bprEpochs`. -/
theorem exact_bprEpochs {Th : Type} [DecidableEq Th] (sig : R → R) (lr reg : R) (σ : Th → BprScratch R) :
    ∀ (es : List (BprEpoch Th)) (m : BprCell → R),
      (exactOps R).bprEpochs sig (1 / 2) lr reg σ es m = bprEpochs sig lr reg σ es m
  | [], _ => rfl
  | e :: es, m => by
    unfold FloatOps.bprEpochs bprEpochs FloatOps.bprEpoch bprEpoch
    rw [exact_bprAct, exact_bprEpochs sig lr reg σ es]

theorem exact_gpuBprAct (sig : R → R) (lr reg : R) (cols : Nat) :
    (exactOps R).gpuBprAct sig (1 / 2) lr reg cols = gpuBprAct sig lr reg cols := by
  funext i s m
  cases i <;> simp only [FloatOps.gpuBprAct, gpuBprAct, exact_negOne] <;> simp only [exactOps, decide_eq_true_eq, neg_one_mul]

/-- Over a field the epochs of BPR on the GPU are `gpuBprEpochs`. -/
theorem exact_gpuBprEpochs {B : Type} [DecidableEq B] {cols : Nat} (sig : R → R) (lr reg : R)
    (σ : B × Fin cols → GpuBprScratch R) : ∀ (es : List (GpuBprEpoch B R cols)) (m : BprCell → R),
      (exactOps R).gpuBprEpochs sig (1 / 2) lr reg σ es m = gpuBprEpochs sig lr reg σ es m
  | [], _ => rfl
  | e :: es, m => by
    unfold FloatOps.gpuBprEpochs gpuBprEpochs FloatOps.gpuBprEpoch gpuBprEpoch
    rw [exact_gpuBprAct]
    exact exact_gpuBprEpochs sig lr reg σ es _

theorem exact_lmfRow (sigm sqrt : R → R) (eps lr reg : R) (pos : List (Vec f R × R)) (neg : List (Vec f R)) (x s : Vec f R) :
    (exactOps R).lmfRow sigm sqrt eps lr reg pos neg x s = lmfRow sigm sqrt eps lr reg pos neg x s := by
  have hd : (exactOps R).lmfDeriv sigm x pos neg = lmfDeriv sigm x pos neg := by
    unfold FloatOps.lmfDeriv lmfDeriv lmfNegative lmfPositiveSig lmfPositive
    simp only [exact_dot]
    rfl
  unfold FloatOps.lmfRow lmfRow
  rw [hd]
  rfl

/-- Over a field an epoch of LMF is `lmfEpoch`. -/
theorem exact_lmfEpoch {factors : Nat} (sigm sqrt : R → R) (eps lr reg : R) (negProp : Int) (C Ct : SpRows R)
    (st : LmfState (factors + 2) R) (d : LmfDraws) :
    (exactOps R).lmfEpoch sigm sqrt eps lr reg negProp C Ct st d = lmfEpoch sigm sqrt eps lr reg negProp C Ct st d := by
  have hr : ∀ (C : SpRows R) (Y : List (Vec (factors + 2) R)) draws sums u x,
      (exactOps R).lmfRowAt sigm sqrt eps lr reg negProp C Y draws sums u x =
        lmfRowAt sigm sqrt eps lr reg negProp C Y draws sums u x := by
    intro C Y draws sums u x
    unfold FloatOps.lmfRowAt lmfRowAt
    simp only [exact_lmfRow]
    rfl
  have hu : ∀ (C : SpRows R) (Y : List (Vec (factors + 2) R)) draws side,
      (exactOps R).lmfUpdate sigm sqrt eps lr reg negProp C Y draws side =
        lmfUpdate sigm sqrt eps lr reg negProp C Y draws side := by
    intro C Y draws side
    unfold FloatOps.lmfUpdate lmfUpdate
    simp only [hr]
  unfold FloatOps.lmfEpoch lmfEpoch
  simp only [hu]
  rfl

end Exact

/-! ## NaN spreads -/

section Nan

variable {V : Type} {f : Nat} {A : FloatOps V}

theorem nanOps_strict (R : Type) [LinearOrder R] [Field R] : (nanOps R).Strict where
  zero := rfl
  one := rfl
  add a b h := by cases a <;> cases b <;> simp_all [nanOps]
  sub a b h := by cases a <;> cases b <;> simp_all [nanOps]
  mul a b h := by cases a <;> cases b <;> simp_all [nanOps]
  div a b h := by cases a <;> cases b <;> simp_all [nanOps]
  lt a b h := by cases a <;> cases b <;> simp_all [nanOps]
  axpy t y r h := by cases t <;> cases y <;> cases r <;> simp_all [nanOps]

/-- Folding with steps that keep NaN. -/
theorem foldl_nan {α β : Type} (isNaN : β → Prop) (step : β → α → β) (hs : ∀ s a, isNaN s → isNaN (step s a)) :
    ∀ (l : List α) (s : β), isNaN s → isNaN (l.foldl step s)
  | [], _, h => h
  | a :: l, s, h => foldl_nan isNaN step hs l _ (hs s a h)

theorem foldl_nan_of_mem {α β : Type} (isNaN : β → Prop) (step : β → α → β) (hs : ∀ s a, isNaN s → isNaN (step s a))
    {x : α} (hx : ∀ s, isNaN (step s x)) : ∀ (l : List α) (s : β), x ∈ l → isNaN (l.foldl step s)
  | [], _, h => absurd h (List.not_mem_nil)
  | a :: l, s, h => by
    rcases List.mem_cons.mp h with rfl | h
    · exact foldl_nan isNaN step hs l _ (hx s)
    · exact foldl_nan_of_mem isNaN step hs hx l _ h

theorem dot_nan (hA : A.Strict) {x y : Vec f V} {j : Fin f} (h : A.isNaN (x j) = true ∨ A.isNaN (y j) = true) :
    A.isNaN (A.dot x y) = true :=
  foldl_nan_of_mem (fun v => A.isNaN v = true) (fun s j => A.add s (A.mul (x j) (y j)))
    (fun _ _ hs => hA.add _ _ (Or.inl hs)) (fun _ => hA.add _ _ (Or.inr (hA.mul _ _ h))) _ _ (List.mem_finRange j)

theorem gram_nan (hA : A.Strict) {Y : List (Vec f V)} {y : Vec f V} (hy : y ∈ Y) {a : Fin f} (h : A.isNaN (y a) = true)
    (b : Fin f) : A.isNaN (A.gram Y a b) = true :=
  foldl_nan_of_mem (fun v => A.isNaN v = true) (fun s (y : Vec f V) => A.add s (A.mul (y a) (y b)))
    (fun _ _ hs => hA.add _ _ (Or.inl hs)) (fun _ => hA.add _ _ (Or.inr (hA.mul _ _ (Or.inl h)))) _ _ hy

theorem regularised_nan (hA : A.Strict) {G : Mat f V} {a b : Fin f} (h : A.isNaN (G a b) = true) (reg : V) :
    A.isNaN (A.regularised G reg a b) = true := hA.add _ _ (Or.inl h)

theorem cgResidual_nan (hA : A.Strict) {G : Mat f V} {a : Fin f} (x : Vec f V)
    (h : ∃ j, A.isNaN (G a j) = true ∨ A.isNaN (x j) = true) (es : List (Vec f V × V)) :
    A.isNaN (A.cgResidual G es x a) = true := by
  obtain ⟨j, h⟩ := h
  refine foldl_nan (fun r : Vec f V => A.isNaN (r a) = true) _ ?_ es _ ?_
  · intro r e hr
    split <;> exact hA.axpy _ _ _ (Or.inr hr)
  · exact hA.mul _ _ (Or.inr (dot_nan hA h))

theorem cgLoop_x_nan (hA : A.Strict) (apply : Vec f V → Vec f V) (tol : V) : ∀ (n : Nat) (s : CG f V) (a : Fin f),
    A.isNaN (s.x a) = true → A.isNaN ((A.cgLoop apply tol n s).1 a) = true
  | 0, _, _, h => h
  | n + 1, s, a, h => by
    have h' : A.isNaN ((A.cgStep apply s).x a) = true := hA.axpy _ _ _ (Or.inr h)
    unfold FloatOps.cgLoop
    dsimp only
    split
    · exact h'
    · exact cgLoop_x_nan hA apply tol n _ a h'

/-- A NaN in `rsold`: after a round everything is NaN. -/
theorem cgStep_nan (hA : A.Strict) (apply : Vec f V → Vec f V) (s : CG f V) (h : A.isNaN s.rsold = true) :
    (∀ a, A.isNaN ((A.cgStep apply s).x a) = true) ∧ (0 < f → A.isNaN (A.cgStep apply s).rsold = true) := by
  have halpha : A.isNaN (A.div s.rsold (A.dot s.p (apply s.p))) = true := hA.div _ _ (Or.inl h)
  refine ⟨fun a => hA.axpy _ _ _ (Or.inl halpha), fun hf => ?_⟩
  exact dot_nan hA (j := ⟨0, hf⟩) (Or.inl (hA.axpy _ _ _ (Or.inl (hA.mul _ _ (Or.inl halpha)))))

theorem cgLoop_nan (hA : A.Strict) (apply : Vec f V → Vec f V) (tol : V) (hf : 0 < f) : ∀ (n : Nat) (s : CG f V),
    A.isNaN s.rsold = true →
      (0 < n → ∀ a, A.isNaN ((A.cgLoop apply tol n s).1 a) = true) ∧ A.isNaN (A.cgLoop apply tol n s).2 = true
  | 0, _, h => ⟨fun h => absurd h (Nat.lt_irrefl 0), h⟩
  | n + 1, s, h => by
    obtain ⟨hx, hr⟩ := cgStep_nan hA apply s h
    unfold FloatOps.cgLoop
    dsimp only
    rw [if_neg (by rw [hA.lt _ _ (Or.inl (hr hf))]; exact Bool.false_ne_true)]
    exact ⟨fun _ a => cgLoop_x_nan hA apply tol n _ a (hx a), (cgLoop_nan hA apply tol hf n _ (hr hf)).2⟩

/-- A NaN in the Gram matrix or in the old row: the whole new row is NaN. -/
theorem cgSolve_nan (hA : A.Strict) {G : Mat f V} {a : Fin f} (x : Vec f V)
    (h : ∃ j, A.isNaN (G a j) = true ∨ A.isNaN (x j) = true) (tol : V) (steps : Nat) (es : List (Vec f V × V)) :
    (0 < steps → ∀ b, A.isNaN ((A.cgSolve G tol steps es x).1 b) = true) ∧
      A.isNaN (A.cgSolve G tol steps es x).2 = true := by
  have hr := cgResidual_nan hA x h es
  have hrs : A.isNaN (A.dot (A.cgResidual G es x) (A.cgResidual G es x)) = true := dot_nan hA (Or.inl hr)
  unfold FloatOps.cgSolve
  dsimp only
  rw [if_neg (by rw [hA.lt _ _ (Or.inl hrs)]; exact Bool.false_ne_true)]
  exact cgLoop_nan hA _ tol (Nat.lt_of_le_of_lt (Nat.zero_le a.val) a.isLt) steps _ hrs

theorem accumulate_nan (hA : A.Strict) {a b : Fin f} (es : List (Vec f V × V)) (s : Mat f V × Vec f V)
    (h : A.isNaN (s.1 a b) = true) : A.isNaN ((es.foldl A.accumulate s).1 a b) = true := by
  refine foldl_nan (fun s : Mat f V × Vec f V => A.isNaN (s.1 a b) = true) _ ?_ es _ h
  intro s e hs
  dsimp only [FloatOps.accumulate]
  split <;> exact hA.axpy _ _ _ (Or.inr hs)

theorem accumulatePy_nan (hA : A.Strict) {a b : Fin f} (es : List (Vec f V × V)) (s : Mat f V × Vec f V)
    (h : A.isNaN (s.1 a b) = true) : A.isNaN ((es.foldl A.accumulatePy s).1 a b) = true :=
  foldl_nan (fun s : Mat f V × Vec f V => A.isNaN (s.1 a b) = true) _ (fun _ _ hs => hA.add _ _ (Or.inl hs)) es _ h

/-- A coordinate of the row that is NaN stays NaN. -/
theorem cgSolve_keeps_nan (hA : A.Strict) {G : Mat f V} {x : Vec f V} {a : Fin f} (h : A.isNaN (x a) = true) (tol : V) (steps : Nat)
    (es : List (Vec f V × V)) : A.isNaN ((A.cgSolve G tol steps es x).1 a) = true := by
  unfold FloatOps.cgSolve
  dsimp only
  split
  · exact h
  · exact cgLoop_x_nan hA _ tol steps _ a h

end Nan

end Implicit
