import Verif.Props.C16
import Verif.Props.C67Sampled
import Verif.Model.GpuALS
/-!
# C78 — users and items without interactions do not influence the others
-/

set_option linter.unusedSectionVars false

namespace Implicit

variable {R : Type} [LinearOrder R] [Field R] {f : Nat}

open Spec (Agree)

/-! ## ALS -/

/-- The four loops are loops over rows. -/
theorem alsSolver_eq (S : Solver f R) (tol : R) (p : ALSParams R) (C : SpRows R) (X Y : List (Vec f R)) (reg : R) :
    alsSolver S tol p C X Y reg = X.zipIdx.mapM fun xu => match C[xu.2]? with
      | none => .error (if p.useNative then .undefinedBehaviour else .indexError)
      | some row => alsRow S tol p reg Y row xu.1 := by
  unfold alsSolver alsRow
  cases p.useCg <;> cases p.useNative
  · exact mapM_range_zipIdx X _
  · exact mapM_range_zipIdx X _
  · rfl
  · rfl

theorem gram_zeros (Y : List (Vec f R)) (k : Nat) : gram (Y ++ List.replicate k 0) = gram Y := by
  funext a b
  simp [gram]

theorem rowEntries_append (err : Err) (Y Z : List (Vec f R)) : ∀ {row : List (Nat × R)}, (∀ e ∈ row, e.1 < Y.length) →
    rowEntries err (Y ++ Z) row = rowEntries err Y row
  | [], _ => rfl
  | (i, c) :: row, h => by
    unfold rowEntries
    rw [List.getElem?_append_left (h (i, c) (by simp)), rowEntries_append err Y Z fun e he => h e (by simp [he])]

/-- Rows at zero change nothing for the row being solved. -/
theorem alsRow_zeros (S : Solver f R) (tol : R) (p : ALSParams R) (reg : R) (Y : List (Vec f R)) (k : Nat) {row : List (Nat × R)}
    (h : ∀ e ∈ row, e.1 < Y.length) (x : Vec f R) :
    alsRow S tol p reg (Y ++ List.replicate k 0) row x = alsRow S tol p reg Y row x := by
  unfold alsRow cgRow leastSquaresRow leastSquaresPyRow
  simp only [gram_zeros, rowEntries_append _ Y _ h]

/-- The solvers that give a zero row to somebody without interactions (see C16). -/
def Spec.ZeroesCold (p : ALSParams R) : Prop := p.useNative = true ∨ (p.useCg = false ∧ 0 < p.regularization)

theorem alsRow_cold [IsStrictOrderedRing R] (S : Solver f R) (tol : R) (p : ALSParams R) (hp : Spec.ZeroesCold p)
    (Y : List (Vec f R)) (x : Vec f R) : alsRow S tol p p.regularization Y [] x = .ok 0 := by
  unfold alsRow
  rcases hp with hn | ⟨hc, hreg⟩
  · rw [hn]
    cases p.useCg <;> rfl
  · rw [hc]
    cases p.useNative
    · have hpd := linearEquation_posDef Y [] (by simp) (by simp) hreg
      obtain ⟨z, hz, hs⟩ := S.spec _ (linearEquation (gram Y) p.regularization []).2 hpd
      have h0 : mulVec (linearEquation (gram Y) p.regularization []).1 (fun _ => 0) =
          (linearEquation (gram Y) p.regularization []).2 := by
        funext a
        rw [linearEquation_snd]
        exact dot_zero_right _
      have hz0 : z = 0 := posDef_unique hpd hs h0
      subst hz0
      show leastSquaresPyRow S (gram Y) Y p.regularization [] = .ok 0
      have hz' : S.solve (linearEquation (gram Y) p.regularization []).1 (linearEquation (gram Y) p.regularization []).2 = some 0 := hz
      unfold leastSquaresPyRow
      show (match S.solve (linearEquation (gram Y) p.regularization []).1 (linearEquation (gram Y) p.regularization []).2 with
        | some x => (pure x : Except Err (Vec f R))
        | none => throw Err.valueError) = .ok 0
      rw [hz']
      rfl
    · rfl

theorem mapM_append_ok {α β ε : Type} {g : α → Except ε β} {l l' : List α} {r : List β} (h : l'.mapM g = .ok r) :
    (l ++ l').mapM g = (l.mapM g).map (· ++ r) := by
  rw [List.mapM_append, h]
  cases l.mapM g <;> rfl

theorem mapM_const {α β ε : Type} {g : α → Except ε β} {b : β} : ∀ {l : List α}, (∀ x ∈ l, g x = .ok b) →
    l.mapM g = .ok (List.replicate l.length b)
  | [], _ => rfl
  | x :: l, h => by
    rw [List.mapM_cons, h x (by simp), mapM_const fun y hy => h y (by simp [hy])]
    rfl

/-- A loop over rows: cold rows at the end. -/
theorem rows_cold {β : Type} {k : Nat} {C : SpRows R} {X X0 : List (Vec f R)} (hX : X.length = C.length) (hX0 : X0.length = k) (err : Err)
    (g : List (Nat × R) → Vec f R → Except Err β) (b : β) (hg : ∀ x ∈ X0, g [] x = .ok b) :
    ((X ++ X0).zipIdx.mapM fun xu => match (C ++ List.replicate k [])[xu.2]? with
      | none => Except.error err
      | some row => g row xu.1) =
    (X.zipIdx.mapM fun (xu : Vec f R × Nat) => match C[xu.2]? with
      | none => Except.error err
      | some row => g row xu.1).map (· ++ List.replicate k b) := by
  rw [List.zipIdx_append, mapM_append_ok (r := List.replicate k b)]
  · congr 1
    refine mapM_congr' fun xu hxu => ?_
    obtain ⟨_, h, _⟩ := List.mem_zipIdx hxu
    rw [List.getElem?_append_left (by omega)]
  · rw [mapM_const (b := b), List.length_zipIdx, hX0]
    intro xu hxu
    obtain ⟨h1, h2, h3⟩ := List.mem_zipIdx hxu
    rw [List.getElem?_append_right (by omega), List.getElem?_replicate, if_pos (by omega)]
    exact hg _ (by rw [h3]; exact List.getElem_mem _)

theorem solver_cold [IsStrictOrderedRing R] (S : Solver f R) (tol : R) (p : ALSParams R) (hp : Spec.ZeroesCold p) {k : Nat}
    {C : SpRows R} {X X0 Y : List (Vec f R)} (hX : X.length = C.length) (hX0 : X0.length = k) :
    alsSolver S tol p (C ++ List.replicate k []) (X ++ X0) Y p.regularization =
      (alsSolver S tol p C X Y p.regularization).map (· ++ List.replicate k 0) := by
  rw [alsSolver_eq, alsSolver_eq]
  exact rows_cold hX hX0 _ _ _ fun x _ => alsRow_cold S tol p hp Y x

theorem solver_zeros (S : Solver f R) (tol : R) (p : ALSParams R) (reg : R) (k : Nat) {C : SpRows R} {X Y : List (Vec f R)}
    (h : ∀ row ∈ C, ∀ e ∈ row, e.1 < Y.length) :
    alsSolver S tol p C X (Y ++ List.replicate k 0) reg = alsSolver S tol p C X Y reg := by
  rw [alsSolver_eq, alsSolver_eq]
  refine mapM_congr' fun xu _ => ?_
  cases hC : C[xu.2]? with
  | none => rfl
  | some row => exact alsRow_zeros S tol p reg Y k (h row (List.mem_of_getElem? hC)) xu.1

theorem transpose_cold_users (cols k : Nat) (C : SpRows R) : transposeRows cols (C ++ List.replicate k []) = transposeRows cols C := by
  unfold transposeRows
  refine List.map_congr_left fun i _ => ?_
  rw [List.zipIdx_append, List.flatMap_append]
  have : (List.flatMap (fun ru : List (Nat × R) × Nat => (ru.1.filter fun e => e.1 == i).map fun e => (ru.2, e.2))
      ((List.replicate k []).zipIdx (0 + C.length))) = [] := by
    rw [List.flatMap_eq_nil_iff]
    intro x hx
    obtain ⟨_, h2, h3⟩ := List.mem_zipIdx hx
    rw [h3]
    simp
  rw [this, List.append_nil]

theorem transpose_cold_items (cols k : Nat) (C : SpRows R) (h : ∀ row ∈ C, ∀ e ∈ row, e.1 < cols) :
    transposeRows (cols + k) C = transposeRows cols C ++ List.replicate k [] := by
  unfold transposeRows
  rw [List.range_add, List.map_append]
  congr 1
  rw [List.map_map, List.eq_replicate_iff]
  refine ⟨by simp, ?_⟩
  intro b hb
  obtain ⟨j, _, rfl⟩ := List.mem_map.mp hb
  rw [Function.comp_apply, List.flatMap_eq_nil_iff]
  intro x hx
  have hx1 : x.1 ∈ C := by
    obtain ⟨_, h2, h3⟩ := List.mem_zipIdx hx
    rw [h3]
    exact List.getElem_mem _
  rw [List.map_eq_nil_iff, List.filter_eq_nil_iff]
  intro e he
  have := h _ hx1 e he
  simp only [beq_iff_eq]
  omega

/-- The model with cold users and items: their factors are zero. -/
def Spec.withCold (users items : Nat) (m : Factors f R) : Factors f R :=
  ⟨m.user ++ List.replicate users 0, m.item ++ List.replicate items 0⟩

theorem transpose_bound (cols : Nat) (C : SpRows R) : ∀ row ∈ transposeRows cols C, ∀ e ∈ row, e.1 < C.length := by
  intro col hcol e he
  obtain ⟨i, hi⟩ := List.mem_iff_getElem?.mp hcol
  obtain ⟨row, hrow, _⟩ := (mem_transpose (u := e.1) (c := e.2) hi).mp he
  exact (List.getElem?_eq_some_iff.mp hrow).1

theorem alsIteration_cold [IsStrictOrderedRing R] (S : Solver f R) (tol : R) (p : ALSParams R) (hp : Spec.ZeroesCold p) (cols : Nat)
    (C : SpRows R) (hC : ∀ row ∈ C, ∀ e ∈ row, e.1 < cols) (users items : Nat) (m : Factors f R) (X0 : List (Vec f R))
    (hu : m.user.length = C.length) (hi : m.item.length = cols) (hX0 : X0.length = users) :
    alsIteration (alsSolver S tol p) (C ++ List.replicate users []) (transposeRows cols C ++ List.replicate items []) p.regularization
        ⟨m.user ++ X0, m.item ++ List.replicate items 0⟩ =
      (alsIteration (alsSolver S tol p) C (transposeRows cols C) p.regularization m).map (Spec.withCold users items) := by
  unfold alsIteration
  have hC' : ∀ row ∈ C ++ List.replicate users [], ∀ e ∈ row, e.1 < m.item.length := by
    intro row hrow e he
    rcases List.mem_append.mp hrow with h | h
    · rw [hi]; exact hC row h e he
    · rw [List.eq_of_mem_replicate h] at he
      exact absurd he List.not_mem_nil
  rw [solver_zeros S tol p _ items hC', solver_cold S tol p hp hu hX0]
  cases hX : alsSolver S tol p C m.user m.item p.regularization with
  | error e => rfl
  | ok X =>
    have hXl : X.length = C.length := ((alsSolver_rows hX).1).trans hu
    have hb : ∀ row ∈ transposeRows cols C ++ List.replicate items [], ∀ e ∈ row, e.1 < X.length := by
      intro row hrow e he
      rcases List.mem_append.mp hrow with h | h
      · rw [hXl]; exact transpose_bound cols C row h e he
      · rw [List.eq_of_mem_replicate h] at he
        exact absurd he List.not_mem_nil
    simp only [Except.map, bind, Except.bind]
    rw [solver_zeros S tol p _ users hb, solver_cold S tol p hp (by rw [hi, transpose_length]) (by simp)]
    cases alsSolver S tol p (transposeRows cols C) m.item X p.regularization <;> rfl

theorem alsIteration_lengths {S : Solver f R} {tol : R} {p : ALSParams R} {C D : SpRows R} {reg : R} {m m' : Factors f R}
    (h : alsIteration (alsSolver S tol p) C D reg m = .ok m') :
    m'.user.length = m.user.length ∧ m'.item.length = m.item.length := by
  unfold alsIteration at h
  cases hX : alsSolver S tol p C m.user m.item reg with
  | error e => rw [hX] at h; cases h
  | ok X =>
    cases hY : alsSolver S tol p D m.item X reg with
    | error e =>
      simp only [bind, Except.bind, hX, hY] at h
      cases h
    | ok Y =>
      simp only [bind, Except.bind, hX, hY] at h
      cases h
      exact ⟨(alsSolver_rows hX).1, (alsSolver_rows hY).1⟩

theorem alsTrace_cold [IsStrictOrderedRing R] (S : Solver f R) (tol : R) (p : ALSParams R) (hp : Spec.ZeroesCold p) (cols : Nat)
    (C : SpRows R) (hC : ∀ row ∈ C, ∀ e ∈ row, e.1 < cols) (users items : Nat) : ∀ (n : Nat) (m : Factors f R) (X0 : List (Vec f R)),
      m.user.length = C.length → m.item.length = cols → X0.length = users →
      alsTrace (alsSolver S tol p) (C ++ List.replicate users []) (transposeRows cols C ++ List.replicate items []) p.regularization n
          ⟨m.user ++ X0, m.item ++ List.replicate items 0⟩ =
        (alsTrace (alsSolver S tol p) C (transposeRows cols C) p.regularization n m).map (List.map (Spec.withCold users items))
  | 0, _, _, _, _, _ => rfl
  | n + 1, m, X0, hu, hi, hX0 => by
    unfold alsTrace
    rw [alsIteration_cold S tol p hp cols C hC users items m X0 hu hi hX0]
    cases hm : alsIteration (alsSolver S tol p) C (transposeRows cols C) p.regularization m with
    | error e => rfl
    | ok m' =>
      obtain ⟨h1, h2⟩ := alsIteration_lengths hm
      have ih := alsTrace_cold S tol p hp cols C hC users items n m' (List.replicate users 0) (h1.trans hu) (h2.trans hi) (by simp)
      simp only [Except.map, bind, Except.bind, Spec.withCold] at ih ⊢
      rw [ih]
      cases alsTrace (alsSolver S tol p) C (transposeRows cols C) p.regularization n m' <;> rfl

theorem applyAlpha_cold (alpha : R) (C : SpRows R) (k : Nat) :
    applyAlpha alpha (C ++ List.replicate k []) = applyAlpha alpha C ++ List.replicate k [] := by
  unfold applyAlpha scaleRows
  split <;> simp

theorem applyAlpha_bound {alpha : R} {C : SpRows R} {n : Nat} (h : ∀ row ∈ C, ∀ e ∈ row, e.1 < n) :
    ∀ row ∈ applyAlpha alpha C, ∀ e ∈ row, e.1 < n := by
  unfold applyAlpha scaleRows
  split
  · intro row hrow e he
    obtain ⟨r, hr, rfl⟩ := List.mem_map.mp hrow
    obtain ⟨d, hd, rfl⟩ := List.mem_map.mp he
    exact h r hr d hd
  · exact h

theorem applyAlpha_len (alpha : R) (C : SpRows R) : (applyAlpha alpha C).length = C.length := by
  unfold applyAlpha scaleRows
  split <;> simp

/-- **C78** (ALS on the CPU).  Adding `users` users without interactions — whatever their initial factors — and `items` items without
interactions whose initial factors are zero does not change what is trained for the others, nor whether training fails; the new rows
are zero.  For the native solvers and the python direct solver. -/
theorem C78_als_partial [IsStrictOrderedRing R] (S : Solver f R) (tol : R) (p : ALSParams R) (hp : Spec.ZeroesCold p) (cols : Nat)
    (C : SpRows R) (hC : ∀ row ∈ C, ∀ e ∈ row, e.1 < cols) (m : Factors f R) (hu : m.user.length = C.length)
    (hi : m.item.length = cols) (users items : Nat) (X0 : List (Vec f R)) (hX0 : X0.length = users) (hn : 1 ≤ p.iterations) :
    alsFit S tol p (cols + items) (C ++ List.replicate users []) ⟨m.user ++ X0, m.item ++ List.replicate items 0⟩ =
      (alsFit S tol p cols C m).map (Spec.withCold users items) := by
  unfold alsFit
  simp only [applyAlpha_cold, transpose_cold_users, transpose_cold_items cols items _ (applyAlpha_bound hC)]
  rw [alsTrace_cold S tol p hp cols _ (applyAlpha_bound hC) users items p.iterations m X0 (by rw [applyAlpha_len, hu]) hi hX0]
  cases hT : alsTrace (alsSolver S tol p) (applyAlpha p.alpha C) (transposeRows cols (applyAlpha p.alpha C)) p.regularization
      p.iterations m with
  | error e => rfl
  | ok l =>
    have hl : l ≠ [] := by
      rintro rfl
      obtain ⟨n, hn'⟩ : ∃ n, p.iterations = n + 1 := ⟨p.iterations - 1, by omega⟩
      rw [hn'] at hT
      unfold alsTrace at hT
      cases h1 : alsIteration (alsSolver S tol p) (applyAlpha p.alpha C) (transposeRows cols (applyAlpha p.alpha C)) p.regularization m with
      | error e => rw [h1] at hT; cases hT
      | ok m' =>
        rw [h1] at hT
        cases h2 : alsTrace (alsSolver S tol p) (applyAlpha p.alpha C) (transposeRows cols (applyAlpha p.alpha C)) p.regularization
            n m' with
        | error e =>
          simp only [bind, Except.bind, h2] at hT
          cases hT
        | ok t =>
          simp only [bind, Except.bind, h2] at hT
          cases hT
    obtain ⟨a, ha⟩ : ∃ a, l.getLast? = some a := ⟨_, List.getLast?_eq_some_getLast hl⟩
    show Except.ok _ = Except.ok _
    rw [List.getLast?_map, ha]
    rfl

/-- Two users; adding a user without interactions that starts at 7, and an item without interactions that starts at 0. -/
example :
    let p : ALSParams Rat := { regularization := 1, alpha := 1, useNative := true, useCg := false, cgSteps := 3, iterations := 2 }
    let C : SpRows Rat := [[(0, 2)], [(0, 1), (1, 3)]]
    let read (r : Except Err (Factors 1 Rat)) := r.toOption.map fun m => (m.user.map (· 0), m.item.map (· 0))
    let small := read (alsFit (scalarSolver Rat) 0 p 2 C ⟨[fun _ => 1, fun _ => 2], [fun _ => 1, fun _ => 3]⟩)
    read (alsFit (scalarSolver Rat) 0 p 3 (C ++ [[]]) ⟨[fun _ => 1, fun _ => 2, fun _ => 7], [fun _ => 1, fun _ => 3, fun _ => 0]⟩) =
      small.map (fun m => (m.1 ++ [0], m.2 ++ [0])) ∧ small.isSome := by
  decide +kernel

/-- **C78** (ALS, violated).  An item nobody interacted with takes part in the first pass over the users with its random initial
factors: the factors of the other users and items come out differently.  (`fit` draws random factors for all items,
`implicit/cpu/als.py:143-146`, where BPR and LMF zero those of items without interactions.) -/
theorem C78_items_violated :
    ∃ (p : ALSParams Rat) (C : SpRows Rat) (m : Factors 1 Rat) (y : Vec 1 Rat),
      Spec.ZeroesCold p ∧ 1 ≤ p.iterations ∧ (∀ row ∈ C, ∀ e ∈ row, e.1 < 1) ∧ m.user.length = C.length ∧ m.item.length = 1 ∧
      (alsFit (scalarSolver Rat) 0 p 1 C m).toOption.map (fun m => (m.user.map (· 0), m.item.map (· 0))) =
        some ([1 / 2], [2 / 5]) ∧
      (alsFit (scalarSolver Rat) 0 p 2 C ⟨m.user, m.item ++ [y]⟩).toOption.map (fun m => (m.user.map (· 0), m.item.map (· 0))) =
        some ([1 / 3], [3 / 10, 0]) := by
  refine ⟨{ regularization := 1, alpha := 1, useNative := true, useCg := false, cgSteps := 3, iterations := 1 }, [[(0, 1)]],
    ⟨[fun _ => 1], [fun _ => 1]⟩, fun _ => 1, Or.inl rfl, by decide, by decide, rfl, rfl, ?_, ?_⟩ <;> decide +kernel

/-- **C78** (ALS, python conjugate gradient solver, violated).  That solver does not zero the rows of users without interactions
(C16): such a user keeps its random start and changes the factors of the items others interacted with. -/
theorem C78_python_cg_violated :
    let p : ALSParams Rat := ⟨1, 1, false, true, 3, 1⟩
    let Y : List (Vec 4 Rat) := [![1, 0, 0, 0], ![0, 2, 0, 0], ![0, 0, 3, 0], ![0, 0, 0, 4]]
    let read (r : Except Err (Factors 4 Rat)) := r.toOption.map fun m => m.item.map (· 0)
    ∀ S, (read (alsFit S (1 / 10 ^ 20) p 4 [[(0, 1)]] ⟨[![1, 0, 0, 0]], Y⟩)).isSome ∧
      read (alsFit S (1 / 10 ^ 20) p 4 [[(0, 1)], []] ⟨[![1, 0, 0, 0], ![1, 1, 1, 1]], Y⟩) ≠
        read (alsFit S (1 / 10 ^ 20) p 4 [[(0, 1)]] ⟨[![1, 0, 0, 0]], Y⟩) := by
  intro p Y read S
  have h : ∀ C m, alsFit S (1 / 10 ^ 20) p 4 C m = alsFit (exactSolver 4 Rat) (1 / 10 ^ 20) p 4 C m := fun _ _ => rfl
  rw [h, h]
  decide +kernel

/-! ## ALS on the GPU -/

theorem gpuLeastSquares_cold (tol : R) (steps : Nat) (G : Mat f R) (cols : Nat) {k : Nat} {C : SpRows R} {X X0 Y : List (Vec f R)}
    (hX : X.length = C.length) (hX0 : X0.length = k) :
    gpuLeastSquares tol steps G cols (C ++ List.replicate k []) (X ++ X0) Y =
      (gpuLeastSquares tol steps G cols C X Y).map (· ++ List.replicate k 0) := by
  unfold gpuLeastSquares
  rw [if_neg (by simp; omega)]
  simp only [hX, lt_self_iff_false, if_false]
  split
  · rfl
  · exact rows_cold hX hX0 _ (fun row x => cgRow G tol steps Y row x) _ fun x _ => rfl

theorem gpuLeastSquares_zeros (tol : R) (steps : Nat) (reg : R) (cols k : Nat) {C : SpRows R} {X Y : List (Vec f R)}
    (h : ∀ row ∈ C, ∀ e ∈ row, e.1 < Y.length) :
    gpuLeastSquares tol steps (regularised (gram (Y ++ List.replicate k 0)) reg) (cols + k) C X (Y ++ List.replicate k 0) =
      gpuLeastSquares tol steps (regularised (gram Y) reg) cols C X Y := by
  unfold gpuLeastSquares
  rw [gram_zeros]
  simp only [List.length_append, List.length_replicate, Nat.add_lt_add_iff_right]
  split
  · rfl
  · split
    · rfl
    · refine mapM_congr' fun xu _ => ?_
      cases hC : C[xu.2]? with
      | none => rfl
      | some row =>
        simp only [cgRow]
        rw [rowEntries_append _ Y _ (h row (List.mem_of_getElem? hC))]

theorem gpuLeastSquares_len {tol : R} {steps : Nat} {G : Mat f R} {cols : Nat} {C : SpRows R} {X Y X' : List (Vec f R)}
    (h : gpuLeastSquares tol steps G cols C X Y = .ok X') : X'.length = X.length := by
  unfold gpuLeastSquares at h
  split at h
  · cases h
  · split at h
    · cases h
    · simpa using mapM_length' h

theorem gpuIteration_cold (tol : R) (p : GpuALSParams R) (cols : Nat) (C : SpRows R) (hC : ∀ row ∈ C, ∀ e ∈ row, e.1 < cols)
    (users items : Nat) (m : Factors f R) (X0 : List (Vec f R))
    (hu : m.user.length = C.length) (hi : m.item.length = cols) (hX0 : X0.length = users) :
    gpuIteration tol p (C.length + users) (cols + items) (C ++ List.replicate users []) (transposeRows cols C ++ List.replicate items [])
        ⟨m.user ++ X0, m.item ++ List.replicate items 0⟩ =
      (gpuIteration tol p C.length cols C (transposeRows cols C) m).map (Spec.withCold users items) := by
  unfold gpuIteration
  have hC' : ∀ row ∈ C ++ List.replicate users [], ∀ e ∈ row, e.1 < m.item.length := by
    intro row hrow e he
    rcases List.mem_append.mp hrow with h | h
    · rw [hi]; exact hC row h e he
    · rw [List.eq_of_mem_replicate h] at he
      exact absurd he List.not_mem_nil
  rw [gpuLeastSquares_zeros tol _ _ cols items hC', gpuLeastSquares_cold tol _ _ _ hu hX0]
  cases hX : gpuLeastSquares tol p.cgSteps (regularised (gram m.item) p.regularization) cols C m.user m.item with
  | error e => rfl
  | ok X =>
    have hXl : X.length = C.length := (gpuLeastSquares_len hX).trans hu
    have hb : ∀ row ∈ transposeRows cols C ++ List.replicate items [], ∀ e ∈ row, e.1 < X.length := by
      intro row hrow e he
      rcases List.mem_append.mp hrow with h | h
      · rw [hXl]; exact transpose_bound cols C row h e he
      · rw [List.eq_of_mem_replicate h] at he
        exact absurd he List.not_mem_nil
    simp only [Except.map, bind, Except.bind]
    rw [gpuLeastSquares_zeros tol _ _ _ users hb, gpuLeastSquares_cold tol _ _ _ (by rw [hi, transpose_length]) (by simp)]
    cases gpuLeastSquares tol p.cgSteps (regularised (gram X) p.regularization) C.length (transposeRows cols C) m.item X <;> rfl

theorem gpuIterations_cold (tol : R) (p : GpuALSParams R) (cols : Nat) (C : SpRows R) (hC : ∀ row ∈ C, ∀ e ∈ row, e.1 < cols)
    (users items : Nat) : ∀ (n : Nat) (m : Factors f R) (X0 : List (Vec f R)),
      m.user.length = C.length → m.item.length = cols → X0.length = users → (n = 0 → X0 = List.replicate users 0) →
      gpuIterations tol p (C.length + users) (cols + items) (C ++ List.replicate users [])
          (transposeRows cols C ++ List.replicate items []) n ⟨m.user ++ X0, m.item ++ List.replicate items 0⟩ =
        (gpuIterations tol p C.length cols C (transposeRows cols C) n m).map (Spec.withCold users items)
  | 0, m, X0, _, _, _, h0 => by
    rw [h0 rfl]
    rfl
  | n + 1, m, X0, hu, hi, hX0, _ => by
    unfold gpuIterations
    rw [gpuIteration_cold tol p cols C hC users items m X0 hu hi hX0]
    cases hm : gpuIteration tol p C.length cols C (transposeRows cols C) m with
    | error e => rfl
    | ok m' =>
      have hl : m'.user.length = m.user.length ∧ m'.item.length = m.item.length := by
        unfold gpuIteration at hm
        cases h1 : gpuLeastSquares tol p.cgSteps (regularised (gram m.item) p.regularization) cols C m.user m.item with
        | error e => rw [h1] at hm; cases hm
        | ok X =>
          cases h2 : gpuLeastSquares tol p.cgSteps (regularised (gram X) p.regularization) C.length (transposeRows cols C) m.item X with
          | error e =>
            simp only [bind, Except.bind, h1, h2] at hm
            cases hm
          | ok Y =>
            simp only [bind, Except.bind, h1, h2] at hm
            cases hm
            exact ⟨gpuLeastSquares_len h1, gpuLeastSquares_len h2⟩
      exact gpuIterations_cold tol p cols C hC users items n m' (List.replicate users 0) (hl.1.trans hu) (hl.2.trans hi) (by simp)
        fun _ => rfl

/-- **C78** (ALS on the GPU): as `C78_als_partial`. -/
theorem C78_gpu_als_partial (tol : R) (p : GpuALSParams R) (cols : Nat) (C : SpRows R) (hC : ∀ row ∈ C, ∀ e ∈ row, e.1 < cols)
    (m : Factors f R) (hu : m.user.length = C.length) (hi : m.item.length = cols) (users items : Nat) (X0 : List (Vec f R))
    (hX0 : X0.length = users) (hn : 1 ≤ p.iterations) :
    gpuAlsFit tol p (cols + items) (C ++ List.replicate users []) ⟨m.user ++ X0, m.item ++ List.replicate items 0⟩ =
      (gpuAlsFit tol p cols C m).map (Spec.withCold users items) := by
  unfold gpuAlsFit
  rw [transpose_cold_users, transpose_cold_items cols items _ hC, List.length_append, List.length_replicate]
  exact gpuIterations_cold tol p cols C hC users items p.iterations m X0 hu hi hX0 fun h => by omega

example :
    let p : GpuALSParams Rat := { regularization := 1, alpha := 1, cgSteps := 3, iterations := 2 }
    let C : SpRows Rat := [[(0, 2)], [(0, 1), (1, 3)]]
    let read (r : Except Err (Factors 1 Rat)) := r.toOption.map fun m => (m.user.map (· 0), m.item.map (· 0))
    let small := read (gpuAlsFit 0 p 2 C ⟨[fun _ => 1, fun _ => 2], [fun _ => 1, fun _ => 3]⟩)
    read (gpuAlsFit 0 p 3 (C ++ [[]]) ⟨[fun _ => 1, fun _ => 2, fun _ => 7], [fun _ => 1, fun _ => 3, fun _ => 0]⟩) =
      small.map (fun m => (m.1 ++ [0], m.2 ++ [0])) ∧ small.isSome := by
  decide +kernel

/-! ## BPR -/

theorem bprRows_cold (verify : Bool) (rows : List (List Nat)) (k : Nat) :
    bprRows verify (rows ++ List.replicate k []) = bprRows verify rows ++ List.replicate k [] := by
  have h : ((rows ++ List.replicate k []).all fun r => decide (r.Pairwise (· ≤ ·))) = rows.all fun r => decide (r.Pairwise (· ≤ ·)) := by
    rw [List.all_append]
    simp
  unfold bprRows
  rw [h]
  split <;> simp

theorem useridsOf_cold (rows : List (List Nat)) (k : Nat) : useridsOf (rows ++ List.replicate k []) = useridsOf rows := by
  unfold useridsOf
  rw [List.zipIdx_append, List.flatMap_append]
  have : (List.flatMap (fun p : List Nat × Nat => List.replicate p.1.length p.2) ((List.replicate k []).zipIdx (0 + rows.length))) = [] := by
    rw [List.flatMap_eq_nil_iff]
    intro x hx
    obtain ⟨_, h2, h3⟩ := List.mem_zipIdx hx
    rw [h3]
    simp
  rw [this, List.append_nil]

theorem flatten_cold {α : Type} (rows : List (List α)) (k : Nat) : (rows ++ List.replicate k []).flatten = rows.flatten := by
  simp

theorem indptr_cold (rows : List (List Nat)) (k : Nat) {u : Nat} (hu : u ≤ rows.length) :
    (indptrOf (rows ++ List.replicate k []))[u]? = (indptrOf rows)[u]? := by
  unfold indptrOf
  rw [List.map_append, List.getElem?_scanl, List.getElem?_scanl, List.length_append, List.length_map, if_pos (by omega), if_pos hu,
    List.take_append_of_le_length (by simpa using hu)]

theorem bprChoose_cold (verify : Bool) (rows : List (List Nat)) (k l d : Nat) :
    bprChoose verify (rows ++ List.replicate k []) l d = bprChoose verify rows l d := by
  unfold bprChoose
  rw [flatten_cold, useridsOf_cold]
  cases h1 : rows.flatten[l]? with
  | none => rfl
  | some i =>
    obtain ⟨u, r, h2, hr, _⟩ := userids_spec rows l i h1
    rw [h2]
    have hu := (List.getElem?_eq_some_iff.mp hr).1
    cases rows.flatten[d]? with
    | none => rfl
    | some j =>
      unfold hasNonZero
      simp only [indptr_cold rows k (le_of_lt hu), indptr_cold rows k hu]

/-- **C78** (BPR).  Adding users without interactions leaves everything as it is: the same runs are possible, each samples the same
entries and computes the same factors.  (The number of items does not occur in the model of the sampling loop, as in the code: the
loop works on the stored entries.) -/
theorem C78_bpr {Th : Type} [DecidableEq Th] [Fintype Th] (sig : R → R) (lr reg : R) (verify : Bool) (factors : Nat)
    (matrix : List (List Nat)) (users : Nat) :
    (∀ e : BprEpoch Th, e.Valid verify (bprRows verify (matrix ++ List.replicate users [])) factors ↔
      e.Valid verify (bprRows verify matrix) factors) ∧
    ∀ (randItem randUser : Nat → Nat → R) (item user : Option (Nat → Nat → R)) (s : Th → BprScratch R) (epochs : List (BprEpoch Th)),
      bprFit sig lr reg verify factors randItem randUser (matrix ++ List.replicate users []) item user s epochs =
        bprFit sig lr reg verify factors randItem randUser matrix item user s epochs := by
  rw [bprRows_cold]
  constructor
  · intro e
    have hp : bprProg verify (bprRows verify matrix ++ List.replicate users []) factors = bprProg verify (bprRows verify matrix) factors := by
      funext d
      unfold bprProg
      rw [bprChoose_cold]
    constructor
    · rintro ⟨h1, h2, h3⟩
      rw [hp] at h1
      rw [flatten_cold] at h2 h3
      exact ⟨h1, h2, h3⟩
    · rintro ⟨h1, h2, h3⟩
      rw [← hp] at h1
      rw [← flatten_cold _ users] at h2 h3
      exact ⟨h1, h2, h3⟩
  · intro randItem randUser item user s epochs
    unfold bprFit
    rw [bprRows_cold]
    congr 1
    funext c
    cases c with
    | item i j =>
      show (item.getD _) i j = (item.getD _) i j
      rw [flatten_cold]
    | user u j =>
      show (user.getD _) u j = (user.getD _) u j
      cases user with
      | some _ => rfl
      | none => ?_
      show bprUserInit factors randUser _ u j = bprUserInit factors randUser _ u j
      unfold bprUserInit
      have : ((bprRows verify matrix ++ List.replicate users [])[u]?.getD []).length = ((bprRows verify matrix)[u]?.getD []).length := by
        by_cases hu : u < (bprRows verify matrix).length
        · rw [List.getElem?_append_left hu]
        · rw [List.getElem?_append_right (by omega), List.getElem?_replicate, List.getElem?_eq_none (by omega)]
          split <;> rfl
      rw [this]

/-- **C78** (BPR on the GPU): the same launches of the kernel are possible, and a launch works on the same rows.  (What a launch does
to the factors is a function of its instructions, `gpuBprEpoch`.) -/
theorem C78_gpu_bpr {B : Type} [DecidableEq B] [Fintype B] {cols : Nat} (verify : Bool) (matrix : List (List Nat)) (users : Nat) :
    (∀ like dislike, gpuChoose verify (bprRows verify (matrix ++ List.replicate users [])) like dislike =
      gpuChoose verify (bprRows verify matrix) like dislike) ∧
    ∀ e : GpuBprEpoch B R cols, e.Valid verify (bprRows verify (matrix ++ List.replicate users [])) ↔
      e.Valid verify (bprRows verify matrix) := by
  rw [bprRows_cold]
  have hc : ∀ like dislike, gpuChoose verify (bprRows verify matrix ++ List.replicate users []) like dislike =
      gpuChoose verify (bprRows verify matrix) like dislike := by
    intro like dislike
    unfold gpuChoose
    rw [flatten_cold, bprChoose_cold]
  refine ⟨hc, fun e => ?_⟩
  have hp : gpuBprProg (R := R) verify (bprRows verify matrix ++ List.replicate users []) = gpuBprProg verify (bprRows verify matrix) := by
    funext t
    unfold gpuBprProg
    rw [hc]
  constructor
  · rintro ⟨h1, h2⟩
    rw [hp] at h1
    rw [flatten_cold] at h2
    exact ⟨h1, h2⟩
  · rintro ⟨h1, h2⟩
    rw [← hp] at h1
    rw [← flatten_cold _ users] at h2
    exact ⟨h1, h2⟩

/-- A user without interactions more: the same sample of the same matrix. -/
example :
    let run (rows : List (List Nat)) (draws : List (Nat × Nat)) : BprCell → Rat :=
      bprFit (Th := Unit) (fun x => 1 / (2 + x)) 1 (1 / 10) true 1 (fun _ _ => 1) (fun _ _ => 0) rows none none
        (fun _ => ⟨0, 0, 0, 0, 0, 0, 0, 0⟩) [⟨fun _ => draws, (draws.flatMap (bprProg true rows 1)).map fun i => ((), i)⟩]
    run [[0, 1], [2], []] [(1, 2), (2, 0)] (.item 1 1) = run [[0, 1], [2]] [(1, 2), (2, 0)] (.item 1 1) ∧
    run [[0, 1], [2]] [(1, 2), (2, 0)] (.item 1 1) ≠ 1 / 2 ∧
    run [[0, 1], [2], []] [(1, 2), (2, 0)] (.user 2 0) = 0 := by
  decide +kernel

/-! ## LMF -/

/-- The side `s'` is `s` with `k` more rows. -/
def Spec.AddsRows (k : Nat) (s s' : LmfSide f R) : Prop :=
  ∃ F S : List (Vec f R), F.length = k ∧ S.length = k ∧ s'.factors = s.factors ++ F ∧ s'.sums = s.sums ++ S

/-- `n` rows on each list of the side. -/
def LmfSide.HasRows (n : Nat) (s : LmfSide f R) : Prop := s.factors.length = n ∧ s.sums.length = n

theorem lmfIndices_cold (C : SpRows R) (k : Nat) : lmfIndices (C ++ List.replicate k []) = lmfIndices C := by
  unfold lmfIndices
  rw [flatten_cold]

theorem lmfNegRows_append {ind : List Nat} {Y Z : List (Vec f R)} (h : ∀ i ∈ ind, i < Y.length) (draws : List Nat) :
    lmfNegRows ind (Y ++ Z) draws = lmfNegRows ind Y draws := by
  unfold lmfNegRows
  refine mapM_congr' fun d _ => ?_
  cases hi : ind[d]? with
  | none => rfl
  | some i =>
    simp only
    rw [List.getElem?_append_left (h i (List.mem_of_getElem? hi))]

theorem lmfUpdate_fixed (sigm sqrt : R → R) (eps lr reg : R) (negProp : Int) {C : SpRows R} {Y Z : List (Vec f R)}
    (hC : ∀ row ∈ C, ∀ e ∈ row, e.1 < Y.length) (draws : Nat → Nat → Nat) (s : LmfSide f R) :
    lmfUpdate sigm sqrt eps lr reg negProp C (Y ++ Z) draws s = lmfUpdate sigm sqrt eps lr reg negProp C Y draws s := by
  have hind : ∀ i ∈ lmfIndices C, i < Y.length := by
    intro i hi
    obtain ⟨e, he, rfl⟩ := List.mem_map.mp hi
    obtain ⟨row, hrow, her⟩ := List.mem_flatten.mp he
    exact hC row hrow e her
  unfold lmfUpdate
  congr 1
  refine mapM_congr' fun p _ => ?_
  unfold lmfRowAt
  cases hr : C[p.2]? with
  | none => rfl
  | some row =>
    cases s.sums[p.2]? with
    | none => rfl
    | some q =>
      simp only [rowEntries_append _ Y Z (hC row (List.mem_of_getElem? hr)), lmfNegRows_append hind]

theorem lmfUpdate_rows (sigm sqrt : R → R) (eps lr reg : R) (negProp : Int) {C : SpRows R} {Y : List (Vec f R)}
    {draws : Nat → Nat → Nat} {s t : LmfSide f R} {n : Nat} (hs : s.HasRows n)
    (h : lmfUpdate sigm sqrt eps lr reg negProp C Y draws s = .ok t) : t.HasRows n := by
  unfold lmfUpdate at h
  cases ho : (s.factors.zipIdx.mapM fun p => lmfRowAt sigm sqrt eps lr reg negProp C Y draws s.sums p.2 p.1) with
  | error e => rw [ho] at h; cases h
  | ok out =>
    rw [ho] at h
    cases h
    have hl : out.length = s.factors.length := by simpa using mapM_length' ho
    obtain ⟨h1, h2⟩ := hs
    exact ⟨by simp [hl, h1], by simp [hl, h1, h2]⟩

theorem lmfUpdate_coldRows (sigm sqrt : R → R) (eps lr reg : R) (negProp : Int) {C : SpRows R} {Y : List (Vec f R)}
    (draws : Nat → Nat → Nat) {s : LmfSide f R} (hs : s.HasRows C.length) {k : Nat} {F S : List (Vec f R)}
    (hF : F.length = k) (hS : S.length = k) :
    lmfUpdate sigm sqrt eps lr reg negProp (C ++ List.replicate k []) Y draws ⟨s.factors ++ F, s.sums ++ S⟩ =
      (lmfUpdate sigm sqrt eps lr reg negProp C Y draws s).map fun t => ⟨t.factors ++ F, t.sums ++ S⟩ := by
  obtain ⟨h1, h2⟩ := hs
  unfold lmfUpdate
  simp only
  rw [List.zipIdx_append, mapM_append_ok (r := F.zip S)]
  · have hm : (s.factors.zipIdx.mapM fun p => lmfRowAt sigm sqrt eps lr reg negProp (C ++ List.replicate k []) Y draws
        (s.sums ++ S) p.2 p.1) = s.factors.zipIdx.mapM fun p => lmfRowAt sigm sqrt eps lr reg negProp C Y draws s.sums p.2 p.1 := by
      refine mapM_congr' fun p hp => ?_
      obtain ⟨_, h, _⟩ := List.mem_zipIdx hp
      unfold lmfRowAt
      rw [List.getElem?_append_left (by omega), List.getElem?_append_left (by omega), lmfIndices_cold]
    rw [hm]
    cases ho : (s.factors.zipIdx.mapM fun p => lmfRowAt sigm sqrt eps lr reg negProp C Y draws s.sums p.2 p.1) with
    | error e => rfl
    | ok out =>
      show Except.ok _ = Except.ok _
      congr 1
      rw [List.map_append, List.map_append, List.map_fst_zip (by omega), List.map_snd_zip (by omega),
        List.drop_eq_nil_of_le (by simp; omega), List.drop_eq_nil_of_le (by omega)]
      simp
  · have key : ∀ (l : List (Vec f R)) (q : List (Vec f R)) (n : Nat), l.length = q.length →
        (∀ j, j < l.length → (C ++ List.replicate k [])[n + j]? = some [] ∧ (s.sums ++ S)[n + j]? = q[j]?) →
        ((l.zipIdx n).mapM fun p => lmfRowAt sigm sqrt eps lr reg negProp (C ++ List.replicate k []) Y draws (s.sums ++ S) p.2 p.1) =
          .ok (l.zip q) := by
      intro l
      induction l with
      | nil => intro q n _ _; rfl
      | cons x l ih =>
        intro q n hl hj
        cases q with
        | nil => simp at hl
        | cons y q =>
          rw [List.zipIdx_cons, List.mapM_cons, ih q (n + 1) (by simpa using hl) (by
            intro j hjl
            have := hj (j + 1) (by simp; omega)
            rw [show n + 1 + j = n + (j + 1) from by omega]
            simpa using this)]
          obtain ⟨e1, e2⟩ := hj 0 (by simp)
          have : lmfRowAt sigm sqrt eps lr reg negProp (C ++ List.replicate k []) Y draws (s.sums ++ S) n x = .ok (x, y) := by
            unfold lmfRowAt
            rw [Nat.add_zero] at e1 e2
            rw [e1, e2]
            rfl
          simp only [this]
          rfl
    refine key F S _ (by omega) ?_
    intro j hj
    rw [List.getElem?_append_right (by omega), List.getElem?_append_right (by omega), List.getElem?_replicate, if_pos (by omega)]
    exact ⟨rfl, by congr 1; omega⟩

theorem agree_mono {α β : Type} {r q : α → β → Prop} (h : ∀ a b, r a b → q a b) : ∀ {a : Except Err α} {b : Except Err β},
    Agree r a b → Agree q a b
  | _, _, .error => .error
  | _, _, .ok hab => .ok (h _ _ hab)

/-- The state of the epochs with more users and items. -/
def Spec.AddsCold (rows cols users items : Nat) (st st' : LmfState f R) : Prop :=
  (Spec.AddsRows users st.user st'.user ∧ Spec.AddsRows items st.item st'.item) ∧ st.user.HasRows rows ∧ st.item.HasRows cols

theorem lmfUpdate_adds (sigm sqrt : R → R) (eps lr reg : R) (negProp : Int) {C : SpRows R} {Y Z : List (Vec f R)}
    (hC : ∀ row ∈ C, ∀ e ∈ row, e.1 < Y.length) (draws : Nat → Nat → Nat) {s s' : LmfSide f R} (hs : s.HasRows C.length) {k : Nat}
    (h : Spec.AddsRows k s s') :
    Agree (fun t t' => Spec.AddsRows k t t' ∧ t.HasRows C.length) (lmfUpdate sigm sqrt eps lr reg negProp C Y draws s)
      (lmfUpdate sigm sqrt eps lr reg negProp (C ++ List.replicate k []) (Y ++ Z) draws s') := by
  obtain ⟨F, S, hF, hS, e1, e2⟩ := h
  have hs' : s' = ⟨s.factors ++ F, s.sums ++ S⟩ := by rw [← e1, ← e2]
  have hC' : ∀ row ∈ C ++ List.replicate k [], ∀ e ∈ row, e.1 < Y.length := by
    intro row hrow e he
    rcases List.mem_append.mp hrow with h | h
    · exact hC row h e he
    · rw [List.eq_of_mem_replicate h] at he
      exact absurd he List.not_mem_nil
  rw [hs', lmfUpdate_fixed sigm sqrt eps lr reg negProp hC', lmfUpdate_coldRows sigm sqrt eps lr reg negProp draws hs hF hS]
  cases ht : lmfUpdate sigm sqrt eps lr reg negProp C Y draws s with
  | error e => exact .error
  | ok t => exact .ok ⟨⟨F, S, hF, hS, rfl, rfl⟩, lmfUpdate_rows sigm sqrt eps lr reg negProp hs ht⟩

theorem AddsRows.setColumn {k : Nat} {s s' : LmfSide f R} (h : Spec.AddsRows k s s') (j : Fin f) :
    Spec.AddsRows k { s with factors := Implicit.setColumn j s.factors } { s' with factors := Implicit.setColumn j s'.factors } := by
  obtain ⟨F, S, hF, hS, e1, e2⟩ := h
  exact ⟨Implicit.setColumn j F, S, by simp [Implicit.setColumn, hF], hS, by simp [Implicit.setColumn, e1], e2⟩

theorem lmfEpochs_cold {factors : Nat} (sigm sqrt : R → R) (eps lr reg : R) (negProp : Int) (cols : Nat) (C : SpRows R)
    (hC : ∀ row ∈ C, ∀ e ∈ row, e.1 < cols) (users items : Nat) : ∀ (ds : List LmfDraws) {st st' : LmfState (factors + 2) R},
      Spec.AddsCold C.length cols users items st st' →
      Agree (Spec.AddsCold C.length cols users items) (lmfEpochs sigm sqrt eps lr reg negProp C (transposeRows cols C) ds st)
        (lmfEpochs sigm sqrt eps lr reg negProp (C ++ List.replicate users []) (transposeRows cols C ++ List.replicate items []) ds st')
  | [], _, _, h => .ok h
  | d :: ds, st, st', h => by
    refine Spec.Agree.bind (r := Spec.AddsCold C.length cols users items) ?_ fun a b hab =>
      lmfEpochs_cold sigm sqrt eps lr reg negProp cols C hC users items ds hab
    obtain ⟨⟨hU, hI⟩, hur, hir⟩ := h
    unfold lmfEpoch
    obtain ⟨F, S, hF, hS, e1, e2⟩ := hI
    rw [e1]
    refine (lmfUpdate_adds sigm sqrt eps lr reg negProp (by rw [hir.1]; exact hC) d.user hur hU).bind fun u u' hu => ?_
    obtain ⟨hu, hul⟩ := hu
    have hu2 := AddsRows.setColumn hu (⟨factors, by omega⟩ : Fin (factors + 2))
    obtain ⟨F', S', hF', hS', e1', e2'⟩ := id hu2
    have hul' : (setColumn (⟨factors, by omega⟩ : Fin (factors + 2)) u.factors).length = C.length := by
      simp [setColumn, hul.1]
    simp only at e1'
    simp only [e1']
    refine (lmfUpdate_adds sigm sqrt eps lr reg negProp (by rw [hul']; exact transpose_bound cols C) d.item
      (by rw [transpose_length]; exact hir) ⟨F, S, hF, hS, e1, e2⟩).bind fun i i' hi => ?_
    obtain ⟨hi, hil⟩ := hi
    rw [transpose_length] at hil
    rw [← e1']
    exact .ok ⟨⟨hu2, AddsRows.setColumn hi _⟩, ⟨hul', hul.2⟩, ⟨by simpa [setColumn] using hil.1, hil.2⟩⟩

theorem lmfInit_cold (n k : Nat) (rand : Nat → Vec f R) (one : Fin f) {count count' : Nat → Nat} (h : ∀ u < n, count' u = count u) :
    ∃ F : List (Vec f R), F.length = k ∧ lmfInit (n + k) rand one count' = lmfInit n rand one count ++ F := by
  unfold lmfInit
  rw [List.range_add, List.map_append]
  refine ⟨((List.range k).map (n + ·)).map fun u => if count' u = 0 then fun _ => 0 else Function.update (rand u) one 1, by simp, ?_⟩
  congr 1
  refine List.map_congr_left fun u hu => ?_
  rw [h u (List.mem_range.mp hu)]

/-- **C78** (LMF).  Adding `users` users and `items` items without interactions, with any initial factors for them, does not change
what the same draws train for the others: the factors and the sums of squared derivatives of the old rows are the same (or both runs go
wrong). -/
theorem C78_lmf {factors : Nat} (sigm sqrt : R → R) (eps lr reg : R) (negProp : Int) (cols : Nat) (C : SpRows R)
    (hC : ∀ row ∈ C, ∀ e ∈ row, e.1 < cols) (users items : Nat) (randItem randUser : Nat → Vec (factors + 2) R)
    (item item' user user' : Option (List (Vec (factors + 2) R)))
    (hit : Option.Rel (fun a b => a.length = cols ∧ ∃ F : List (Vec (factors + 2) R), F.length = items ∧ b = a ++ F) item item')
    (hus : Option.Rel (fun a b => a.length = C.length ∧ ∃ F : List (Vec (factors + 2) R), F.length = users ∧ b = a ++ F) user user')
    (draws : List LmfDraws) :
    Agree (fun st st' => st'.user.factors.take C.length = st.user.factors ∧ st'.item.factors.take cols = st.item.factors ∧
        st'.user.factors.length = C.length + users ∧ st'.item.factors.length = cols + items)
      (lmfFit sigm sqrt eps lr reg negProp cols C randItem randUser item user draws)
      (lmfFit sigm sqrt eps lr reg negProp (cols + items) (C ++ List.replicate users []) randItem randUser item' user' draws) := by
  have hI : ∃ (Y F : List (Vec (factors + 2) R)), F.length = items ∧ Y.length = cols ∧
      item.getD (lmfInit cols randItem ⟨factors + 1, by omega⟩ fun i => (lmfIndices C).count i) = Y ∧
      item'.getD (lmfInit (cols + items) randItem ⟨factors + 1, by omega⟩ fun i => (lmfIndices (C ++ List.replicate users [])).count i) =
        Y ++ F := by
    cases hit with
    | some h =>
      obtain ⟨hl, F, hF, rfl⟩ := h
      exact ⟨_, F, hF, hl, rfl, rfl⟩
    | none =>
      obtain ⟨F, hF, he⟩ := lmfInit_cold cols items randItem (⟨factors + 1, by omega⟩ : Fin (factors + 2))
        (count := fun i => (lmfIndices C).count i) (count' := fun i => (lmfIndices (C ++ List.replicate users [])).count i)
        (fun u _ => by rw [lmfIndices_cold])
      exact ⟨_, F, hF, by simp [lmfInit], rfl, he⟩
  have hU : ∃ (X F : List (Vec (factors + 2) R)), F.length = users ∧ X.length = C.length ∧
      user.getD (lmfInit C.length randUser ⟨factors, by omega⟩ fun u => (C[u]?.getD []).length) = X ∧
      user'.getD (lmfInit (C.length + users) randUser ⟨factors, by omega⟩ fun u => ((C ++ List.replicate users [])[u]?.getD []).length) =
        X ++ F := by
    cases hus with
    | some h =>
      obtain ⟨hl, F, hF, rfl⟩ := h
      exact ⟨_, F, hF, hl, rfl, rfl⟩
    | none =>
      obtain ⟨F, hF, he⟩ := lmfInit_cold C.length users randUser (⟨factors, by omega⟩ : Fin (factors + 2))
        (count := fun u => (C[u]?.getD []).length) (count' := fun u => ((C ++ List.replicate users [])[u]?.getD []).length)
        (fun u hu => by rw [List.getElem?_append_left hu])
      exact ⟨_, F, hF, by simp [lmfInit], rfl, he⟩
  obtain ⟨Y, F, hF, hY, e1, e2⟩ := hI
  obtain ⟨X, F', hF', hX, e3, e4⟩ := hU
  unfold lmfFit
  simp only [List.length_append, List.length_replicate]
  rw [e1, e2, e3, e4, transpose_cold_users, transpose_cold_items cols items C hC]
  have h := lmfEpochs_cold sigm sqrt eps lr reg negProp cols C hC users items draws
    (st := ⟨⟨X, List.replicate C.length fun _ => 0⟩, ⟨Y, List.replicate cols fun _ => 0⟩⟩)
    (st' := ⟨⟨X ++ F', List.replicate (C.length + users) fun _ => 0⟩, ⟨Y ++ F, List.replicate (cols + items) fun _ => 0⟩⟩)
    ⟨⟨⟨F', List.replicate users fun _ => 0, hF', by simp, rfl, by rw [List.replicate_append_replicate]⟩,
      ⟨F, List.replicate items fun _ => 0, hF, by simp, rfl, by rw [List.replicate_append_replicate]⟩⟩,
      ⟨hX, by simp⟩, ⟨hY, by simp⟩⟩
  refine agree_mono (fun st st' h => ?_) h
  · obtain ⟨⟨⟨G, _, hG, _, g1, _⟩, ⟨H, _, hH, _, h1, _⟩⟩, hu, hi⟩ := h
    refine ⟨?_, ?_, ?_, ?_⟩
    · rw [g1, List.take_append_of_le_length (le_of_eq hu.1.symm), List.take_of_length_le (le_of_eq hu.1)]
    · rw [h1, List.take_append_of_le_length (le_of_eq hi.1.symm), List.take_of_length_le (le_of_eq hi.1)]
    · rw [g1, List.length_append, hu.1, hG]
    · rw [h1, List.length_append, hi.1, hH]

/-- Two epochs with and without a third user and a third item (which start at 7 and at 8). -/
example :
    let fit (cols : Nat) (C : SpRows Rat) (X Y : List Rat) :=
      lmfFit (factors := 1) (fun x : Rat => 1 / (2 + x * x)) (fun x => x) 1 1 (1 / 10) 1 cols C (fun _ _ => 0) (fun _ _ => 0)
        (some (Y.map fun y => ![y, 1 / 2, 1])) (some (X.map fun x => ![x, 1, 1 / 3])) (List.replicate 2 ⟨fun u k => u + k, fun _ _ => 1⟩)
    let read (n m : Nat) (r : Except Err (LmfState 3 Rat)) :=
      r.toOption.map fun st => ((st.user.factors.take n).map (· 0), (st.item.factors.take m).map (· 0))
    read 2 2 (fit 3 [[(0, 2)], [(0, 1), (1, 3)], []] [1, 2, 7] [1, 3, 8]) = read 2 2 (fit 2 [[(0, 2)], [(0, 1), (1, 3)]] [1, 2] [1, 3]) ∧
    (read 2 2 (fit 2 [[(0, 2)], [(0, 1), (1, 3)]] [1, 2] [1, 3])).isSome := by
  decide +kernel

end Implicit
