import Verif.Lemmas.Transpose
import Verif.Lemmas.Solver
import Verif.Props.C75
/-!
# C75 — training a model again: zero factors
-/

set_option linter.unusedSectionVars false

namespace Implicit

open Spec (ValidRow TrainsTo)

variable {R : Type} [LinearOrder R] [Field R] {f : Nat}

/-- All rows are zero. -/
def Spec.AllZero (X : List (Vec f R)) : Prop := ∀ x ∈ X, x = 0

/-- The weighted sum of the vectors that the positive entries of a row point to. -/
def Spec.pull (Y : List (Vec f R)) (row : List (Nat × R)) : Vec f R :=
  fun a => (row.map fun e => if 0 < e.2 then e.2 * (Y[e.1]?.getD 0) a else 0).sum

theorem linearEquation_pull (Y : List (Vec f R)) (G : Mat f R) (reg : R) (row : List (Nat × R)) :
    (linearEquation G reg (row.map fun e => (Y[e.1]?.getD 0, e.2))).2 = Spec.pull Y row := by
  funext a
  rw [linearEquation_snd, List.map_map]
  unfold Spec.pull
  congr 1
  refine List.map_congr_left fun e _ => ?_
  simp only [Function.comp, gain]
  split_ifs <;> simp

theorem dot_pull (v : Vec f R) (Y : List (Vec f R)) (row : List (Nat × R)) :
    dot v (Spec.pull Y row) = (row.map fun e => gain e.2 * dot v (Y[e.1]?.getD 0)).sum := by
  rw [← linearEquation_pull Y (gram Y) 0, dot_linearEquation_snd, List.map_map]
  congr 1
  refine List.map_congr_left fun e _ => ?_
  simp only [Function.comp]
  rw [dot_comm v]

theorem pull_zero {Y : List (Vec f R)} (h : Spec.AllZero Y) (row : List (Nat × R)) : Spec.pull Y row = 0 := by
  funext a
  unfold Spec.pull
  have : ∀ e : Nat × R, (Y[e.1]?.getD 0) a = 0 := by
    intro e
    cases hy : Y[e.1]? with
    | none => rfl
    | some y => rw [h y (List.mem_of_getElem? hy)]; rfl
  simp [this]

/-! ## The exact solver -/

variable [IsStrictOrderedRing R]

/-- A row of the Cholesky solver: zero if its right hand side is, and otherwise at an acute angle to it. -/
theorem cholesky_row {S : Solver f R} {C : SpRows R} {X Y X' : List (Vec f R)} {reg : R} (hreg : 0 < reg)
    (hC : ∀ row ∈ C, ValidRow Y.length row) (h : leastSquares S C X Y reg = .ok X') :
    X'.length = X.length ∧ ∀ (u : Nat) row x, C[u]? = some row → X'[u]? = some x →
      (Spec.pull Y row = 0 → x = 0) ∧ (Spec.pull Y row ≠ 0 → x ≠ 0) ∧ (x ≠ 0 → 0 < dot x (Spec.pull Y row)) := by
  unfold leastSquares leastSquaresNative at h
  obtain ⟨hl, hrows⟩ := mapM_ok_iff h
  rw [List.length_range] at hl
  refine ⟨hl, fun u row x hrow hx => ?_⟩
  have hu : u < X.length := by rw [← hl]; exact (List.getElem?_eq_some_iff.mp hx).1
  obtain ⟨y, hy, hy'⟩ := hrows u u (List.getElem?_range hu)
  rw [hx] at hy'
  cases hy'
  rw [hrow] at hy
  dsimp only at hy
  unfold leastSquaresRow at hy
  split_ifs at hy with he
  · rw [List.isEmpty_iff.mp he]
    have hx0 : x = 0 := (Except.ok.inj hy).symm
    refine ⟨fun _ => hx0, fun hne => absurd rfl hne, fun hne => absurd hx0 hne⟩
  · have hv := hC row (List.mem_of_getElem? hrow)
    rw [rowEntries_eq hv.lt] at hy
    simp only [bind, Except.bind] at hy
    have hA := linearEquation_posDef Y row hv.nodup hv.lt hreg
    obtain ⟨z, hz, hz'⟩ := S.spec _ (linearEquation (gram Y) reg (row.map fun e => (Y[e.1]?.getD 0, e.2))).2 hA
    rw [hz] at hy
    have hzx : z = x := Except.ok.inj hy
    subst hzx
    rw [linearEquation_pull] at hz'
    refine ⟨fun h0 => ?_, fun hne h0 => ?_, fun hne => ?_⟩
    · rw [h0] at hz'
      exact posDef_unique hA hz' (mulVec_zero _)
    · rw [h0, mulVec_zero] at hz'
      exact hne hz'.symm
    · rw [← hz']
      exact hA.pos z hne

/-- The sum over all entries, by rows. -/
def Spec.pullTotal (C : SpRows R) (X Y : List (Vec f R)) : R :=
  ((List.range C.length).map fun u => dot (X[u]?.getD 0) (Spec.pull Y (C[u]?.getD []))).sum

theorem list_range_sum (n : Nat) (g : Nat → R) : ((List.range n).map g).sum = ∑ u : Fin n, g u := by
  induction n with
  | zero => simp
  | succ n ih => rw [List.range_succ, List.map_append, List.sum_append, ih, Fin.sum_univ_castSucc]; simp

/-- Seen from the rows and from the columns the sum is the same. -/
theorem total_transpose {cols : Nat} {C : SpRows R} (hC : ∀ row ∈ C, ValidRow cols row) (X Y : List (Vec f R)) :
    Spec.pullTotal C X Y = Spec.pullTotal (transposeRows cols C) Y X := by
  unfold Spec.pullTotal
  rw [list_range_sum, list_range_sum, transpose_length]
  have hsum : ∀ (n : Nat) (row : List (Nat × R)), ValidRow n row → ∀ (v : Vec f R) (Z : List (Vec f R)),
      dot v (Spec.pull Z row) =
        ∑ i : Fin n, (match row.lookup i.1 with | none => 0 | some c => gain c * dot v (Z[i.1]?.getD 0)) := by
    intro n row hr v Z
    rw [sum_lookup row hr.nodup hr.lt (fun i o => match o with | none => 0 | some c => gain c * dot v (Z[i]?.getD 0)), dot_pull]
    simp
  have hget : ∀ u : Fin C.length, C[u.1]?.getD [] ∈ C := fun u => by
    rw [List.getElem?_eq_getElem u.2]; exact List.getElem_mem u.2
  have hgetT : ∀ i : Fin cols, (transposeRows cols C)[i.1]?.getD [] ∈ transposeRows cols C := fun i => by
    have : i.1 < (transposeRows cols C).length := by rw [transpose_length]; exact i.2
    rw [List.getElem?_eq_getElem this]; exact List.getElem_mem this
  calc ∑ u : Fin C.length, dot (X[u.1]?.getD 0) (Spec.pull Y (C[u.1]?.getD []))
      = ∑ u : Fin C.length, ∑ i : Fin cols, (match (C[u.1]?.getD []).lookup i.1 with
          | none => 0 | some c => gain c * dot (X[u.1]?.getD 0) (Y[i.1]?.getD 0)) :=
        Finset.sum_congr rfl fun u _ => hsum cols _ (hC _ (hget u)) _ _
    _ = ∑ i : Fin cols, ∑ u : Fin C.length, (match (C[u.1]?.getD []).lookup i.1 with
          | none => 0 | some c => gain c * dot (X[u.1]?.getD 0) (Y[i.1]?.getD 0)) := Finset.sum_comm
    _ = ∑ i : Fin cols, dot (Y[i.1]?.getD 0) (Spec.pull X ((transposeRows cols C)[i.1]?.getD [])) := by
        refine Finset.sum_congr rfl fun i _ => ?_
        rw [hsum C.length _ (transpose_valid hC _ (hgetT i))]
        refine Finset.sum_congr rfl fun u _ => ?_
        have hi : i.1 < (transposeRows cols C).length := by rw [transpose_length]; exact i.2
        rw [transpose_lookup hC (col := (transposeRows cols C)[i.1]?.getD [])
          (by rw [List.getElem?_eq_getElem hi]; rfl) u.1, dot_comm]

theorem getD_ne {X : List (Vec f R)} {u : Nat} (h : X[u]?.getD 0 ≠ 0) : ∃ x, X[u]? = some x ∧ x ≠ 0 := by
  cases hx : X[u]? with
  | none => rw [hx] at h; exact absurd rfl h
  | some x => rw [hx] at h; exact ⟨x, rfl, h⟩

/-- Some row of the matrix pulls. -/
def Spec.Pulls (C : SpRows R) (Y : List (Vec f R)) : Prop := ∃ row ∈ C, Spec.pull Y row ≠ 0

/-- After an exact sweep the sum is positive, or nothing pulled and all rows are zero. -/
theorem cholesky_total {S : Solver f R} {C : SpRows R} {X Y X' : List (Vec f R)} {reg : R} (hreg : 0 < reg)
    (hC : ∀ row ∈ C, ValidRow Y.length row) (hlen : C.length = X.length) (h : leastSquares S C X Y reg = .ok X') :
    (Spec.Pulls C Y → 0 < Spec.pullTotal C X' Y ∧ ¬ Spec.AllZero X') ∧ (¬ Spec.Pulls C Y → Spec.AllZero X') := by
  obtain ⟨hl, hrows⟩ := cholesky_row hreg hC h
  constructor
  · rintro ⟨row, hrow, hne⟩
    obtain ⟨u, hu⟩ := List.mem_iff_getElem?.mp hrow
    have huC := (List.getElem?_eq_some_iff.mp hu).1
    have hu' : u < X'.length := by rw [hl, ← hlen]; exact huC
    have hx := (hrows u row _ hu (List.getElem?_eq_getElem hu')).2.1 hne
    refine ⟨?_, fun hz => hx (hz _ (List.getElem_mem hu'))⟩
    unfold Spec.pullTotal
    rw [list_range_sum]
    refine Finset.sum_pos' (fun v _ => ?_) ⟨⟨u, huC⟩, Finset.mem_univ _, ?_⟩
    · have hv' : v.1 < X'.length := by rw [hl, ← hlen]; exact v.2
      rw [List.getElem?_eq_getElem hv', List.getElem?_eq_getElem v.2]
      by_cases h0 : X'[v.1] = 0
      · simp only [Option.getD_some]
        rw [h0, dot_comm]
        exact le_of_eq (dot_zero_right' _).symm
      · exact le_of_lt ((hrows v.1 _ _ (List.getElem?_eq_getElem v.2) (List.getElem?_eq_getElem hv')).2.2 h0)
    · dsimp only
      rw [hu, List.getElem?_eq_getElem hu']
      exact (hrows u row _ hu (List.getElem?_eq_getElem hu')).2.2 hx
  · intro hno x hx
    obtain ⟨u, hu⟩ := List.mem_iff_getElem?.mp hx
    have huC : u < C.length := by rw [hlen, ← hl]; exact (List.getElem?_eq_some_iff.mp hu).1
    refine (hrows u _ x (List.getElem?_eq_getElem huC) hu).1 ?_
    by_contra hne
    exact hno ⟨_, List.getElem_mem huC, hne⟩

/-- If the sum is positive some row pulls. -/
theorem pulls_of_total {C : SpRows R} {X Y : List (Vec f R)} (h : 0 < Spec.pullTotal C X Y) : Spec.Pulls C Y := by
  by_contra hno
  unfold Spec.pullTotal at h
  rw [list_range_sum, Finset.sum_eq_zero] at h
  · exact lt_irrefl _ h
  · intro u _
    rw [List.getElem?_eq_getElem u.2]
    have : Spec.pull Y C[u.1] = 0 := by
      by_contra hne
      exact hno ⟨_, List.getElem_mem u.2, hne⟩
    simp only [Option.getD_some]
    rw [this, dot_zero_right']

theorem not_pulls_zero {C : SpRows R} {Y : List (Vec f R)} (h : Spec.AllZero Y) : ¬ Spec.Pulls C Y := by
  rintro ⟨row, -, hne⟩
  exact hne (pull_zero h row)

/-- One iteration of exact ALS: the factors are alive afterwards exactly if something pulled before. -/
theorem cholesky_iteration {S : Solver f R} {C : SpRows R} {reg : R} (hreg : 0 < reg) {m m' : Factors f R}
    (hrows : C.length = m.user.length) (hC : ∀ row ∈ C, ValidRow m.item.length row)
    (h : alsIteration (leastSquares S) C (transposeRows m.item.length C) reg m = .ok m') :
    m'.user.length = m.user.length ∧ m'.item.length = m.item.length ∧
    (Spec.Pulls C m.item → Spec.Pulls C m'.item ∧ ¬ Spec.AllZero m'.user ∧ ¬ Spec.AllZero m'.item) ∧
    (¬ Spec.Pulls C m.item → Spec.AllZero m'.user ∧ Spec.AllZero m'.item) := by
  unfold alsIteration at h
  cases hX : leastSquares S C m.user m.item reg with
  | error e => rw [hX] at h; cases h
  | ok X =>
    rw [hX] at h
    cases hY : leastSquares S (transposeRows m.item.length C) m.item X reg with
    | error e => simp [hY, bind, Except.bind] at h
    | ok Y =>
      have hm : m' = ⟨X, Y⟩ := by simpa [hY, bind, Except.bind, pure, Except.pure, eq_comm] using h
      subst hm
      have hXl := (cholesky_row hreg hC hX).1
      have hCt : ∀ col ∈ transposeRows m.item.length C, ValidRow X.length col := by
        rw [hXl, ← hrows]
        exact transpose_valid hC
      have hYl := (cholesky_row hreg hCt hY).1
      obtain ⟨a1, a2⟩ := cholesky_total hreg hC hrows hX
      obtain ⟨b1, b2⟩ := cholesky_total hreg hCt (transpose_length _ _) hY
      refine ⟨hXl, hYl, fun hp => ?_, fun hp => ?_⟩
      · obtain ⟨h1, h2⟩ := a1 hp
        rw [total_transpose hC] at h1
        obtain ⟨h3, h4⟩ := b1 (pulls_of_total h1)
        rw [← total_transpose hC] at h3
        exact ⟨pulls_of_total h3, h2, h4⟩
      · exact ⟨a2 hp, b2 (not_pulls_zero (a2 hp))⟩

/-- **C75** (exact ALS): after any positive number of iterations all factors are zero exactly if no row of the data pulled on the
item factors at the start; in particular a model that has learnt something from the data does not lose it by further training. -/
theorem C75_alive {S : Solver f R} {C : SpRows R} {reg : R} (hreg : 0 < reg) {init m : Factors f R} {n : Nat}
    (hrows : C.length = init.user.length) (hC : ∀ row ∈ C, ValidRow init.item.length row)
    (h : TrainsTo (fun _ => alsIteration (leastSquares S) C (transposeRows init.item.length C) reg) (n + 1) init m) :
    (Spec.AllZero m.user ↔ ¬ Spec.Pulls C init.item) ∧ (Spec.AllZero m.item ↔ ¬ Spec.Pulls C init.item) := by
  obtain ⟨states, h0, hn, hs⟩ := h
  have key : ∀ k ≤ n, (states (k + 1)).user.length = init.user.length ∧ (states (k + 1)).item.length = init.item.length ∧
      (Spec.Pulls C init.item → Spec.Pulls C (states (k + 1)).item ∧ ¬ Spec.AllZero (states (k + 1)).user ∧
        ¬ Spec.AllZero (states (k + 1)).item) ∧
      (¬ Spec.Pulls C init.item → Spec.AllZero (states (k + 1)).user ∧ Spec.AllZero (states (k + 1)).item) := by
    intro k
    induction k with
    | zero =>
      intro _
      have := hs 0 (Nat.succ_pos n)
      rw [h0] at this
      exact cholesky_iteration hreg hrows hC this
    | succ k ih =>
      intro hk
      obtain ⟨i1, i2, i3, i4⟩ := ih (by omega)
      have hstep := hs (k + 1) (by omega)
      dsimp only at hstep
      rw [← i2] at hstep
      obtain ⟨j1, j2, j3, j4⟩ := cholesky_iteration hreg (by rw [i1]; exact hrows) (by rw [i2]; exact hC) hstep
      exact ⟨j1.trans i1, j2.trans i2, fun hp => j3 (i3 hp).1, fun hp => j4 (not_pulls_zero (i4 hp).2)⟩
  obtain ⟨-, -, k3, k4⟩ := key n (le_refl n)
  rw [hn] at k3 k4
  exact ⟨⟨fun hz hp => (k3 hp).2.1 hz, fun hp => (k4 hp).1⟩, ⟨fun hz hp => (k3 hp).2.2 hz, fun hp => (k4 hp).2⟩⟩

/-! ## Zero factors stay -/

theorem cgSolve_zero {tol : R} (htol : 0 < tol) (steps : Nat) (G : Mat f R)
    {es : List (Vec f R × R)} (hes : ∀ e ∈ es, e.1 = 0) : cgSolve G tol steps es 0 = 0 := by
  have hr : cgResidual G es 0 = 0 := by
    unfold cgResidual
    have key : ∀ (l : List (Vec f R × R)) (r : Vec f R), (∀ e ∈ l, e.1 = 0) → r = 0 →
        l.foldl (fun r e => if 0 < e.2 then axpy (e.2 - (e.2 - 1) * dot e.1 0) e.1 r
          else axpy (0 - (-e.2 - 1) * dot e.1 0) e.1 r) r = 0 := by
      intro l
      induction l with
      | nil => intro r _ hr; exact hr
      | cons e l ih =>
        intro r he hr
        refine ih _ (fun e he' => he e (List.mem_cons_of_mem _ he')) ?_
        have h0 : e.1 = 0 := he e (by simp)
        dsimp only
        rw [h0, hr]
        split_ifs <;> funext a <;> simp [axpy]
    refine key es _ hes ?_
    rw [mulVec_zero]
    funext a
    simp
  unfold cgSolve
  rw [hr]
  simp only [dot_zero_right']
  rw [if_pos htol]

theorem rowEntries_zero {err : Err} {Y : List (Vec f R)} (hY : Spec.AllZero Y) {row : List (Nat × R)} {es : List (Vec f R × R)}
    (h : rowEntries err Y row = .ok es) : ∀ e ∈ es, e.1 = 0 := by
  obtain ⟨hlt, rfl⟩ := rowEntries_ok_iff h
  intro e he
  obtain ⟨e', he', rfl⟩ := List.mem_map.mp he
  dsimp only
  rw [List.getElem?_eq_getElem (hlt e' he')]
  exact hY _ (List.getElem_mem _)

/-- The conjugate gradient sweep of zero factors over zero factors. -/
theorem leastSquaresCG_zero {tol : R} (htol : 0 < tol) {steps : Nat} {C : SpRows R} {X Y X' : List (Vec f R)} {reg : R}
    (hX : Spec.AllZero X) (hY : Spec.AllZero Y) (h : leastSquaresCG tol steps C X Y reg = .ok X') : Spec.AllZero X' := by
  obtain ⟨hl, hrows⟩ := mapM_ok_iff h
  intro x' hx'
  obtain ⟨u, hu⟩ := List.mem_iff_getElem?.mp hx'
  have hlt : u < X.length := by
    have := (List.getElem?_eq_some_iff.mp hu).1
    rwa [hl, List.length_zipIdx] at this
  obtain ⟨y, hy, hy'⟩ := hrows u _ (zipIdx_get (List.getElem?_eq_getElem hlt))
  rw [hu] at hy'
  cases hy'
  dsimp only at hy
  cases hc : C[u]? with
  | none => rw [hc] at hy; cases hy
  | some row =>
    rw [hc] at hy
    dsimp only at hy
    unfold cgRow at hy
    split_ifs at hy
    · exact (Except.ok.inj hy).symm
    · cases hes : rowEntries .undefinedBehaviour Y row with
      | error e => rw [hes] at hy; cases hy
      | ok es =>
        rw [hes] at hy
        rw [← Except.ok.inj hy, hX _ (List.getElem_mem hlt)]
        exact cgSolve_zero htol steps _ (rowEntries_zero hY hes)

theorem alsIteration_parts {solver : SweepFn f R} {C Ct : SpRows R} {reg : R} {m m' : Factors f R}
    (h : alsIteration solver C Ct reg m = .ok m') :
    solver C m.user m.item reg = .ok m'.user ∧ solver Ct m.item m'.user reg = .ok m'.item := by
  unfold alsIteration at h
  cases hX : solver C m.user m.item reg with
  | error e => rw [hX] at h; cases h
  | ok X =>
    rw [hX] at h
    cases hY : solver Ct m.item X reg with
    | error e => simp [hY, bind, Except.bind] at h
    | ok Y =>
      have hm : m' = ⟨X, Y⟩ := by simpa [hY, bind, Except.bind, pure, Except.pure, eq_comm] using h
      subst hm
      exact ⟨rfl, hY⟩

/-- **C75 is violated** by zero factors (conjugate gradients): no training gets a model away from them, on whatever data. -/
theorem C75_zero_violated {tol : R} (htol : 0 < tol) {steps : Nat} {C Ct : SpRows R} {reg : R} {init m : Factors f R} {n : Nat}
    (hu : Spec.AllZero init.user) (hi : Spec.AllZero init.item)
    (h : TrainsTo (fun _ => alsIteration (leastSquaresCG tol steps) C Ct reg) n init m) :
    Spec.AllZero m.user ∧ Spec.AllZero m.item := by
  obtain ⟨states, h0, hn, hs⟩ := h
  have key : ∀ k ≤ n, Spec.AllZero (states k).user ∧ Spec.AllZero (states k).item := by
    intro k
    induction k with
    | zero => intro _; rw [h0]; exact ⟨hu, hi⟩
    | succ k ih =>
      intro hk
      obtain ⟨i1, i2⟩ := ih (by omega)
      obtain ⟨p1, p2⟩ := alsIteration_parts (hs k (by omega))
      have := leastSquaresCG_zero htol i1 i2 p1
      exact ⟨this, leastSquaresCG_zero htol i2 this p2⟩
  rw [← hn]
  exact key n (le_refl n)

/-- A row of the native solvers without entries. -/
theorem leastSquaresCG_empty {tol : R} {steps : Nat} {C : SpRows R} {X Y X' : List (Vec f R)} {reg : R}
    (hC : ∀ row ∈ C, row = []) (h : leastSquaresCG tol steps C X Y reg = .ok X') : Spec.AllZero X' := by
  obtain ⟨hl, hrows⟩ := mapM_ok_iff h
  intro x' hx'
  obtain ⟨u, hu⟩ := List.mem_iff_getElem?.mp hx'
  have hlt : u < X.length := by
    have := (List.getElem?_eq_some_iff.mp hu).1
    rwa [hl, List.length_zipIdx] at this
  obtain ⟨y, hy, hy'⟩ := hrows u _ (zipIdx_get (List.getElem?_eq_getElem hlt))
  rw [hu] at hy'
  cases hy'
  dsimp only at hy
  cases hc : C[u]? with
  | none => rw [hc] at hy; cases hy
  | some row =>
    rw [hc, hC row (List.mem_of_getElem? hc)] at hy
    exact (Except.ok.inj hy).symm

/-- **C75 is violated**: one fit on a matrix without entries, and every later fit on any data returns a model whose factors, and
so all its scores, are zero. -/
theorem C75_empty_violated {tol tol' : R} (htol' : 0 < tol') {steps steps' : Nat} {C C' Ct' : SpRows R} {cols : Nat} {reg reg' : R}
    {init m m' : Factors f R} {n n' : Nat} (hC : ∀ row ∈ C, row = [])
    (h : TrainsTo (fun _ => alsIteration (leastSquaresCG tol steps) C (transposeRows cols C) reg) (n + 1) init m)
    (h' : TrainsTo (fun _ => alsIteration (leastSquaresCG tol' steps') C' Ct' reg') n' m m') :
    ∀ x ∈ m'.user, ∀ y ∈ m'.item, dot x y = 0 := by
  obtain ⟨states, -, hn, hs⟩ := h
  obtain ⟨p1, p2⟩ := alsIteration_parts (hs n (Nat.lt_succ_self n))
  rw [hn] at p1 p2
  have hCt : ∀ col ∈ transposeRows cols C, col = [] := by
    intro col hcol
    obtain ⟨i, hi⟩ := List.mem_iff_getElem?.mp hcol
    rw [List.eq_nil_iff_forall_not_mem]
    intro e he
    obtain ⟨row, hrow, hmem⟩ := transpose_mem hi he
    rw [hC row (List.mem_of_getElem? hrow)] at hmem
    exact List.not_mem_nil hmem
  obtain ⟨hz, -⟩ := C75_zero_violated htol' (leastSquaresCG_empty hC p1) (leastSquaresCG_empty hCt p2) h'
  intro x hx y _
  rw [hz x hx, dot_comm]
  exact dot_zero_right' y

/-! ## Examples -/

/-- Something pulls on the item factors `1`, and nothing does if the two liked items cancel. -/
example : Spec.Pulls (f := 1) ([[(0, (2 : Rat)), (1, 1)]]) [fun _ => 1, fun _ => 1] ∧
    ¬ Spec.Pulls (f := 1) ([[(0, (2 : Rat)), (1, 1)]]) [fun _ => 1, fun _ => -2] := by
  constructor
  · refine ⟨_, List.mem_cons_self, fun h => ?_⟩
    have := congrFun h 0
    revert this
    decide +kernel
  · rintro ⟨row, hrow, hne⟩
    simp only [List.mem_singleton] at hrow
    subst hrow
    refine hne (funext fun a => ?_)
    rw [Fin.fin_one_eq_zero a]
    decide +kernel

/-- One sweep with item factors `1` and with item factors that cancel. -/
example :
    ((leastSquares (scalarSolver Rat) [[(0, 2), (1, 1)]] [fun _ => 5] [fun _ => 1, fun _ => 1] 1).toOption.map (·.map (· 0))) =
      some [3 / 4] ∧
    ((leastSquares (scalarSolver Rat) [[(0, 2), (1, 1)]] [fun _ => 5] [fun _ => 1, fun _ => -2] 1).toOption.map (·.map (· 0))) =
      some [0] := by
  decide +kernel

/-- Training zero factors. -/
example : ((alsIteration (f := 1) (leastSquaresCG (1 / 1000 : Rat) 3) [[(0, 2), (1, 1)]] (transposeRows 2 [[(0, 2), (1, 1)]]) 1
      ⟨[fun _ => 0], [fun _ => 0, fun _ => 0]⟩).toOption.map fun m => (m.user.map (· 0), m.item.map (· 0))) =
    some ([0], [0, 0]) := by
  decide +kernel

end Implicit
