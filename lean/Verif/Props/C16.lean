import Verif.Props.C13

/-!
# C16 — users or items without interactions get zero factors from ALS
-/

set_option linter.unusedSectionVars false

namespace Implicit

variable {R : Type} [LinearOrder R] [Field R] {f : Nat}

open Spec (ValidRow)

/-- The row update of each solver, read off the four loops. -/
def alsRow (S : Solver f R) (tol : R) (p : ALSParams R) (reg : R) (Y : List (Vec f R))
    (row : List (Nat × R)) (x : Vec f R) : Except Err (Vec f R) :=
  if p.useCg then
    if p.useNative then cgRow (regularised (gram Y) reg) tol p.cgSteps Y row x
    else do
      let es ← rowEntries .indexError Y row
      pure (cgSolve (regularised (gram Y) reg) tol p.cgSteps es x)
  else if p.useNative then leastSquaresRow S (gram Y) Y reg row
  else leastSquaresPyRow S (gram Y) Y reg row

theorem alsSolver_rows {S : Solver f R} {tol : R} {p : ALSParams R} {C : SpRows R}
    {X Y X' : List (Vec f R)} {reg : R} (h : alsSolver S tol p C X Y reg = .ok X') :
    X'.length = X.length ∧ ∀ (u : Nat) x, X[u]? = some x → ∃ row x', C[u]? = some row ∧
      alsRow S tol p reg Y row x = .ok x' ∧ X'[u]? = some x' := by
  unfold alsSolver at h
  unfold alsRow
  split_ifs at h ⊢ with h1 h2 h2
  · obtain ⟨hl, hr⟩ := mapM_ok_iff h
    refine ⟨by simpa using hl, fun u x hx => ?_⟩
    obtain ⟨y, e, hy⟩ := hr u (x, u) (by simp [List.getElem?_zipIdx, hx])
    simp only at e
    cases hC : C[u]? with
    | none => rw [hC] at e; cases e
    | some row => rw [hC] at e; exact ⟨row, y, rfl, e, hy⟩
  · obtain ⟨hl, hr⟩ := mapM_ok_iff h
    refine ⟨by simpa using hl, fun u x hx => ?_⟩
    obtain ⟨y, e, hy⟩ := hr u (x, u) (by simp [List.getElem?_zipIdx, hx])
    simp only at e
    cases hC : C[u]? with
    | none => rw [hC] at e; cases e
    | some row => rw [hC] at e; exact ⟨row, y, rfl, e, hy⟩
  · obtain ⟨hl, hr⟩ := mapM_ok_iff h
    refine ⟨by simpa using hl, fun u x hx => ?_⟩
    have hu := (List.getElem?_eq_some_iff.mp hx).1
    obtain ⟨y, e, hy⟩ := hr u u (by simp [hu])
    cases hC : C[u]? with
    | none => rw [hC] at e; cases e
    | some row => rw [hC] at e; exact ⟨row, y, rfl, e, hy⟩
  · obtain ⟨hl, hr⟩ := mapM_ok_iff h
    refine ⟨by simpa using hl, fun u x hx => ?_⟩
    have hu := (List.getElem?_eq_some_iff.mp hx).1
    obtain ⟨y, e, hy⟩ := hr u u (by simp [hu])
    cases hC : C[u]? with
    | none => rw [hC] at e; cases e
    | some row => rw [hC] at e; exact ⟨row, y, rfl, e, hy⟩

/-- **C16** (native solvers).  Whatever the previous factors and the regularisation, a row without
stored entries is all zero afterwards. -/
theorem C16_native_partial (S : Solver f R) (tol : R) (p : ALSParams R) (hp : p.useNative = true)
    (C : SpRows R) (X Y X' : List (Vec f R)) (reg : R)
    (h : alsSolver S tol p C X Y reg = .ok X') (u : Nat) (hC : C[u]? = some []) (x : Vec f R)
    (hx : X'[u]? = some x) : ∀ j, x j = 0 := by
  obtain ⟨hl, hr⟩ := alsSolver_rows h
  have hu : u < X.length := by rw [← hl]; exact (List.getElem?_eq_some_iff.mp hx).1
  obtain ⟨row, x', h1, h2, h3⟩ := hr u X[u] (List.getElem?_eq_getElem hu)
  rw [hC] at h1; cases h1
  rw [hx] at h3; cases h3
  unfold alsRow at h2
  simp only [hp, if_true] at h2
  intro j
  split at h2
  · have : x = fun _ => 0 := by cases h2; rfl
    rw [this]
  · have : x = fun _ => 0 := by cases h2; rfl
    rw [this]

section
variable [IsStrictOrderedRing R]

/-- **C16** (python direct solver): the system it builds has 0 as its only solution. -/
theorem C16_python_direct_partial (S : Solver f R) (tol : R) (p : ALSParams R) (hp : p.useCg = false)
    (C : SpRows R) (X Y X' : List (Vec f R)) {reg : R} (hreg : 0 < reg)
    (h : alsSolver S tol p C X Y reg = .ok X') (u : Nat) (hC : C[u]? = some []) (x : Vec f R)
    (hx : X'[u]? = some x) : ∀ j, x j = 0 := by
  by_cases hn : p.useNative = true
  · exact C16_native_partial S tol p hn C X Y X' reg h u hC x hx
  obtain ⟨hl, hr⟩ := alsSolver_rows h
  have hu : u < X.length := by rw [← hl]; exact (List.getElem?_eq_some_iff.mp hx).1
  obtain ⟨row, x', h1, h2, h3⟩ := hr u X[u] (List.getElem?_eq_getElem hu)
  rw [hC] at h1; cases h1
  rw [hx] at h3; cases h3
  unfold alsRow at h2
  simp only [hp, hn] at h2
  simp only [Bool.false_eq_true, if_false] at h2
  have hpd := linearEquation_posDef Y [] (by simp) (by simp) hreg
  obtain ⟨z, hz, hs⟩ := S.spec _ (linearEquation (gram Y) reg []).2 hpd
  have h2' : (match S.solve (linearEquation (gram Y) reg []).1 (linearEquation (gram Y) reg []).2 with
    | some x => (pure x : Except Err (Vec f R))
    | none => throw Err.valueError) = .ok x := h2
  have hz' : S.solve (linearEquation (gram Y) reg []).1 (linearEquation (gram Y) reg []).2 = some z :=
    hz
  rw [hz'] at h2'
  have hxz : z = x := by cases h2'; rfl
  have h0 : mulVec (linearEquation (gram Y) reg []).1 (fun _ => 0) =
      (linearEquation (gram Y) reg []).2 := by
    funext a
    rw [linearEquation_snd]
    exact dot_zero_right _
  have : x = fun _ => 0 := by
    rw [← hxz]
    exact posDef_unique hpd hs h0
  intro j; rw [this]

/-- **C16** (python CG solver), what does hold: with at least as many CG steps as factors the squared
length of an empty row's factor is below `1e-20 / regularization²`.  Missing: exactly zero, and fewer
steps than factors (`C16_python_cg_violated`). -/
theorem C16_python_cg_partial (S : Solver f R) {tol : R} (htol : 0 < tol) (p : ALSParams R)
    (hp : p.useCg = true) (hsteps : f ≤ p.cgSteps)
    (C : SpRows R) (X Y X' : List (Vec f R)) {reg : R} (hreg : 0 < reg)
    (h : alsSolver S tol p C X Y reg = .ok X') (u : Nat) (hC : C[u]? = some []) (x : Vec f R)
    (hx : X'[u]? = some x) : reg ^ 2 * ∑ j, x j ^ 2 < tol := by
  by_cases hn : p.useNative = true
  · have h0 := C16_native_partial S tol p hn C X Y X' reg h u hC x hx
    simpa [h0] using htol
  obtain ⟨hl, hr⟩ := alsSolver_rows h
  have hu : u < X.length := by rw [← hl]; exact (List.getElem?_eq_some_iff.mp hx).1
  obtain ⟨row, x', h1, h2, h3⟩ := hr u X[u] (List.getElem?_eq_getElem hu)
  rw [hC] at h1; cases h1
  rw [hx] at h3; cases h3
  unfold alsRow at h2
  simp only [hp, hn] at h2
  have hxe : x = cgSolve (regularised (gram Y) reg) tol p.cgSteps (entriesOf Y []) X[u] := by
    cases h2; rfl
  obtain ⟨hc, _⟩ := C14_cg_converges Y [] ⟨by simp, by simp⟩ hreg htol p.cgSteps hsteps X[u]
  rw [← hxe] at hc
  -- the residual of an empty row is `-(YtY + reg) x`
  have hres : Spec.residual Y [] reg x = fun a => - mulVec (regularised (gram Y) reg) x a := by
    rw [residual_eq Y [] ⟨by simp, by simp⟩]
    funext a
    simp [linearEquation]
  rw [hres] at hc
  set g := mulVec (regularised (gram Y) reg) x with hg
  have hc' : dot g g < tol := by
    have : dot g g = ∑ j, (-g j) ^ 2 := Finset.sum_congr rfl (fun j _ => by ring)
    rw [this]; exact hc
  -- reg |x|² ≤ x·Gx, and |Gx - reg x|² ≥ 0
  have h5 : reg * dot x x ≤ dot x g := by
    rw [hg, mulVec_regularised, dot_axpy_right, dot_mulVec_gram]
    have : 0 ≤ (Y.map fun y => dot y x * dot y x).sum := by
      refine List.sum_nonneg fun a ha => ?_
      obtain ⟨y, _, rfl⟩ := List.mem_map.mp ha
      exact mul_self_nonneg _
    linarith
  have h6 : 0 ≤ dot (axpy (-reg) x g) (axpy (-reg) x g) := dot_self_nonneg' _
  rw [dot_axpy_left, dot_axpy_right, dot_axpy_right, dot_comm g x] at h6
  have h7 : ∑ j, x j ^ 2 = dot x x := Finset.sum_congr rfl (fun j _ => by ring)
  rw [h7]
  nlinarith [mul_le_mul_of_nonneg_left h5 hreg.le]

end

/-- **C16** fails for the python CG solver with the default of 3 steps and more than 3 factors: the
factor of a user without any interaction is not zero after the sweep. -/
theorem C16_python_cg_violated :
    let p : ALSParams Rat := ⟨1, 1, false, true, 3, 15⟩
    let Y : List (Vec 4 Rat) := [![1, 0, 0, 0], ![0, 2, 0, 0], ![0, 0, 3, 0], ![0, 0, 0, 4]]
    ∀ S, ∃ x', alsSolver S (1 / 10 ^ 20) p [[]] [![1, 1, 1, 1]] Y 1 = .ok [x'] ∧ x' 0 ≠ 0 := by
  intro p Y S
  exact ⟨cgSolve (regularised (gram Y) 1) (1 / 10 ^ 20) 3 [] ![1, 1, 1, 1], rfl, by decide +kernel⟩

/-- **C16** (other rows).  The new factor of row `u` is determined by its own entries, its own old
factor and the other side's factors: changing, adding or emptying other rows has no effect on it. -/
theorem C16_rows_independent (S : Solver f R) (tol : R) (p : ALSParams R) (reg : R)
    (Y : List (Vec f R)) (C₁ C₂ : SpRows R) (X₁ X₂ X₁' X₂' : List (Vec f R))
    (h₁ : alsSolver S tol p C₁ X₁ Y reg = .ok X₁') (h₂ : alsSolver S tol p C₂ X₂ Y reg = .ok X₂')
    (u v : Nat) (hu : u < X₁.length) (hC : C₁[u]? = C₂[v]?) (hX : X₁[u]? = X₂[v]?) :
    X₁'[u]? = X₂'[v]? := by
  obtain ⟨_, r1⟩ := alsSolver_rows h₁
  obtain ⟨_, r2⟩ := alsSolver_rows h₂
  obtain ⟨row1, x1, a1, a2, a3⟩ := r1 u X₁[u] (List.getElem?_eq_getElem hu)
  obtain ⟨row2, x2, b1, b2, b3⟩ := r2 v X₁[u] (by rw [← hX]; exact List.getElem?_eq_getElem hu)
  rw [hC, b1] at a1; cases a1
  rw [a2] at b2; cases b2
  rw [a3, b3]

/-- A data set with an empty row to which the theorems apply, for every solver. -/
example (p : ALSParams Rat) : ∃ X', alsSolver (exactSolver 2 Rat) (1 / 10 ^ 20) p
    [[(0, 1)], []] [![1, 1], ![2, 3]] [![1, 2]] (1 / 2) = .ok X' ∧ X'.length = 2 := by
  obtain ⟨X', e, hl, _⟩ := C13_solver (exactSolver 2 Rat) (1 / 10 ^ 20) p (reg := 1 / 2) (by norm_num)
    [[(0, 1)], []] [![1, 1], ![2, 3]] [![1, 2]] rfl (by
      intro row hrow
      simp only [List.mem_cons, List.not_mem_nil, or_false] at hrow
      rcases hrow with rfl | rfl <;> exact ⟨by simp, by simp⟩)
  exact ⟨X', e, hl⟩

end Implicit
