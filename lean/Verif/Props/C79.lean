import Verif.Spec.Storage
import Verif.Props.C18
import Verif.Props.C67Sampled
import Verif.Props.C68
import Verif.Props.C71
import Verif.Props.C78Knn
import Verif.Props.C34
import Verif.Lemmas.Explain
/-!
# C79: the way a matrix is stored does not matter
-/

namespace Implicit

open Spec

variable {R : Type} {f : Nat}

section rows

variable [LinearOrder R] [Field R]

theorem cell_of_nodup {row : List (Nat × R)} (h : (row.map Prod.fst).Nodup) {i : Nat} {v : R} (hm : (i, v) ∈ row) :
    cell row i = v := sumAt_of_mem h hm

theorem cell_of_not_stored {row : List (Nat × R)} {i : Nat} (h : ¬ Stored row i) : cell row i = 0 := sumAt_eq_zero h

theorem mem_iff_cell {row : List (Nat × R)} (h : (row.map Prod.fst).Nodup ∧ ∀ e ∈ row, e.2 ≠ 0) (i : Nat) (v : R) :
    (i, v) ∈ row ↔ cell row i = v ∧ v ≠ 0 := by
  constructor
  · intro hm
    exact ⟨cell_of_nodup h.1 hm, h.2 _ hm⟩
  · rintro ⟨rfl, hv⟩
    by_cases hs : Stored row i
    · obtain ⟨w, hw⟩ := hs
      rwa [cell_of_nodup h.1 hw]
    · exact absurd (cell_of_not_stored hs) hv

/-- Two canonical rows of the same numbers store the same entries. -/
theorem canonical_row_perm {row row' : List (Nat × R)} (h : (row.map Prod.fst).Nodup ∧ ∀ e ∈ row, e.2 ≠ 0)
    (h' : (row'.map Prod.fst).Nodup ∧ ∀ e ∈ row', e.2 ≠ 0) (hc : ∀ i, cell row i = cell row' i) : row'.Perm row := by
  rw [List.perm_ext_iff_of_nodup (List.Nodup.of_map _ h'.1) (List.Nodup.of_map _ h.1)]
  rintro ⟨i, v⟩
  rw [mem_iff_cell h, mem_iff_cell h', hc]

/-- Two canonical ways to store a matrix differ in the order of the entries only. -/
theorem canonical_perm {C C' : SpRows R} (h : Canonical C) (h' : Canonical C') (hs : SameTable C C') :
    List.Forall₂ (fun row row' => row'.Perm row) C C' := by
  obtain ⟨hl, hc⟩ := hs
  rw [List.forall₂_iff_get]
  refine ⟨hl, fun u hu hu' => ?_⟩
  refine canonical_row_perm (h _ (List.get_mem ..)) (h' _ (List.get_mem ..)) fun i => ?_
  have := hc u i
  simpa [entry, List.getD_eq_getElem?_getD, List.getElem?_eq_getElem hu, List.getElem?_eq_getElem hu'] using this

end rows

theorem forall₂_renamed {C C' : SpRows R} (h : List.Forall₂ (fun row row' => row'.Perm row) C C') :
    RenamedMatrix (Equiv.refl Nat) (Equiv.refl Nat) C C' := by
  induction h with
  | nil => intro u; exact .none
  | cons h _ ih =>
    intro u
    cases u with
    | zero => exact .some (by simpa using h)
    | succ u => exact ih u

theorem renamed_refl {α : Type} {X X' : List α} : Renamed (Equiv.refl Nat) X X' ↔ X' = X :=
  ⟨fun h => List.ext_getElem? h, fun h _ => by rw [h]; rfl⟩

variable [LinearOrder R] [Field R]

/-! ## ALS -/

/-- **C79** (ALS on the CPU and on the GPU).  Two canonical ways to store one training matrix give the same model, whatever the solver
and the parameters: both runs fail, or they end with the same factors. -/
theorem C79_als (S : Solver f R) (tol : R) (p : ALSParams R) (gp : GpuALSParams R) (cols : Nat) {C C' : SpRows R} (h : Canonical C)
    (h' : Canonical C') (hs : SameTable C C') (init : Factors f R) :
    (alsFit S tol p cols C' init).toOption = (alsFit S tol p cols C init).toOption ∧
      (gpuAlsFit tol gp cols C' init).toOption = (gpuAlsFit tol gp cols C init).toOption := by
  have hr := forall₂_renamed (canonical_perm h h' hs)
  have hi : Spec.RenamedFactors (Equiv.refl Nat) (Equiv.refl Nat) init init := ⟨renamed_refl.mpr rfl, renamed_refl.mpr rfl⟩
  have key : ∀ m m' : Factors f R, Spec.RenamedFactors (Equiv.refl Nat) (Equiv.refl Nat) m m' → m' = m := by
    rintro ⟨X, Y⟩ ⟨X', Y'⟩ ⟨h1, h2⟩
    cases renamed_refl.mp h1
    cases renamed_refl.mp h2
    rfl
  exact ⟨(agree_mono key (C67_rename S tol p cols (fun _ => Iff.rfl) hr hi)).toOption,
    (agree_mono key (C67_rename_gpu tol gp cols (fun _ => Iff.rfl) hr hi)).toOption⟩

/-- One factor: the same three numbers in the stored orders 0, 2 and 2, 0. -/
example :
    let C : SpRows Rat := [[(0, 2), (2, 3)], [(1, 4)]]
    let C' : SpRows Rat := [[(2, 3), (0, 2)], [(1, 4)]]
    let p : ALSParams Rat := ⟨1, 2, false, true, 3, 2⟩
    let init : Factors 1 Rat := ⟨[![1], ![2]], [![1], ![2], ![3]]⟩
    let fit (C : SpRows Rat) := ((alsFit (scalarSolver Rat) 0 p 3 C init).map fun m => (m.user.map (· 0), m.item.map (· 0))).toOption
    SameTable C C' ∧ fit C' = fit C ∧ fit C ≠ none := by
  refine ⟨⟨rfl, fun u i => ?_⟩, by decide +kernel⟩
  rcases u with - | - | u <;> simp [entry, cell, sumAt, add_comm]

theorem applyAlpha_perm {C C' : SpRows R} (h : List.Forall₂ (fun row row' => row'.Perm row) C C') (alpha : R) :
    List.Forall₂ (fun row row' => row'.Perm row) (applyAlpha alpha C) (applyAlpha alpha C') := by
  unfold applyAlpha scaleRows
  split
  · rw [List.forall₂_map_left_iff, List.forall₂_map_right_iff]
    exact h.imp fun _ _ h => h.map _
  · exact h

theorem forall₂_get {C C' : SpRows R} (h : List.Forall₂ (fun row row' => row'.Perm row) C C') (u : Nat) :
    Option.Rel (fun row row' => row'.Perm row) C[u]? C'[u]? := by
  have := forall₂_renamed h u
  simpa using this

theorem leastSquaresNative_perm (S : Solver f R) (G : Mat f R) {C C' : SpRows R}
    (h : List.Forall₂ (fun row row' => row'.Perm row) C C') (n : Nat) (Y : List (Vec f R)) (reg : R) :
    (leastSquaresNative S G C' n Y reg).toOption = (leastSquaresNative S G C n Y reg).toOption := by
  unfold leastSquaresNative
  refine mapM_congr_toOption fun u _ => ?_
  have := forall₂_get h u
  revert this
  generalize C[u]? = a
  generalize C'[u]? = b
  intro hab
  cases hab with
  | none => rfl
  | some hp => exact leastSquaresRow_renamed S (τ := Equiv.refl _) (Y := Y) (Y' := Y) (fun _ => rfl) G reg (perm_as_renamed hp)

/-- **C79** (`recalculate_user`, `recalculate_item`, on the CPU and on the GPU).  The rows passed may be stored in any order. -/
theorem C79_recalculate (env : Env f R) (st : MFState f R) (ids : Ids) (tol : R) (p : GpuALSParams R) (G : Mat f R)
    (Y : List (Vec f R)) (users cols : Nat) {C C' : SpRows R} (h : Canonical C) (h' : Canonical C') (hs : SameTable C C') :
    (recalculateUser env st ids C').1.toOption = (recalculateUser env st ids C).1.toOption ∧
      (recalculateItem env st ids C').1.toOption = (recalculateItem env st ids C).1.toOption ∧
      (gpuRecalculateUser tol p G Y users cols C').toOption = (gpuRecalculateUser tol p G Y users cols C).toOption := by
  have hp := canonical_perm h h' hs
  have hl := hs.1
  refine ⟨?_, ?_, ?_⟩
  · unfold recalculateUser
    rw [hl]
    split
    · rfl
    · exact leastSquaresNative_perm _ _ (applyAlpha_perm hp _) _ _ _
  · exact leastSquaresNative_perm _ _ (applyAlpha_perm hp _) _ _ _
  · unfold gpuRecalculateUser
    have ha := applyAlpha_perm hp p.alpha
    refine (agree_mono (fun _ _ h => renamed_refl.mp h) (gpuLeastSquares_renamed tol f G cols (forall₂_renamed ha)
      ha.length_eq.symm (renamed_refl.mpr rfl) (renamed_refl.mpr rfl))).toOption

/-- Two users recalculated from rows in another order. -/
example :
    let C : SpRows Rat := [[(0, 2), (2, 3)], [(1, 4)]]
    let C' : SpRows Rat := [[(2, 3), (0, 2)], [(1, 4)]]
    let st : MFState 1 Rat := freshState ⟨[![1], ![2]], [![1], ![2], ![3]]⟩
    let user (C : SpRows Rat) := ((recalculateUser exampleEnv st (.many [0, 1]) C).1.map fun X => X.map (· 0)).toOption
    user C' = user C ∧ user C ≠ none := by
  decide +kernel

theorem lossRow_perm (G : Mat f R) {es es' : List (Vec f R × R)} (h : es'.Perm es) (x : Vec f R) :
    lossRow G es' x = lossRow G es x := by
  have key : ∀ s, es'.foldl (lossStep x) s = es.foldl (lossStep x) s := by
    intro s
    refine h.foldl_eq' (fun a _ b _ z => ?_) s
    have hax : ∀ (c d : R) (u v w : Vec f R), axpy c u (axpy d v w) = axpy d v (axpy c u w) := by
      intro c d u v w
      funext j
      simp only [axpy]
      ring
    unfold lossStep
    split <;> split <;> simp only [hax, Prod.mk.injEq, true_and] <;> constructor <;> ring
  unfold lossRow
  simp only [key]

/-- **C79** (loss).  So may the matrix the training loss is calculated for. -/
theorem C79_loss (cols : Nat) (X Y : List (Vec f R)) (reg : R) {C C' : SpRows R} (h : Canonical C) (h' : Canonical C')
    (hs : SameTable C C') : (calculateLoss C' cols X Y reg).toOption = (calculateLoss C cols X Y reg).toOption := by
  have hp := canonical_perm h h' hs
  have hparts : (X.zipIdx.mapM (lossPart C' Y)).toOption = (X.zipIdx.mapM (lossPart C Y)).toOption := by
    refine mapM_congr_toOption fun xu _ => ?_
    unfold lossPart
    have := forall₂_get hp xu.2
    revert this
    generalize C[xu.2]? = a
    generalize C'[xu.2]? = b
    intro hab
    cases hab with
    | none => rfl
    | some hab =>
      refine ((rowEntries_renamed _ _ (τ := Equiv.refl _) (Y := Y) (Y' := Y) (fun _ => rfl) (perm_as_renamed hab)).bind ?_).toOption
      intro es es' he
      exact .ok (lossRow_perm _ he _)
  have hnnz : (C'.map List.length).sum = (C.map List.length).sum := by
    congr 1
    clear hparts hs h h'
    induction hp with
    | nil => rfl
    | cons h _ ih => rw [List.map_cons, List.map_cons, h.length_eq, ih]
  unfold calculateLoss
  rw [hnnz, hs.1]
  revert hparts
  generalize X.zipIdx.mapM (lossPart C' Y) = a
  generalize X.zipIdx.mapM (lossPart C Y) = b
  intro hab
  cases a <;> cases b <;> first | rfl | cases hab
  rfl

/-- The loss of two orders of the same rows. -/
example :
    let C : SpRows Rat := [[(0, 2), (2, 3)], [(1, 4)]]
    let C' : SpRows Rat := [[(2, 3), (0, 2)], [(1, 4)]]
    let loss (C : SpRows Rat) := (calculateLoss C 3 [![1], ![2]] ([![1], ![2], ![3]] : List (Vec 1 Rat)) 1).toOption
    loss C' = loss C ∧ loss C ≠ none := by
  decide +kernel

/-! ## Explanations -/

omit [Field R] in
/-- The `N` largest, in order, do not depend on the order in which they are offered. -/
theorem keepLargest_perm (H : HeapImpl (R × Nat) pairLt) (N : Nat) {cs cs' : List (R × Nat)} (h : cs'.Perm cs) :
    drainHeap H (cs'.foldl (keepLargest H N) []).length (cs'.foldl (keepLargest H N) []) =
      drainHeap H (cs.foldl (keepLargest H N) []).length (cs.foldl (keepLargest H N) []) := by
  have : Std.Total (fun a b : R × Nat => ¬ pairLt b a) := ⟨fun a b => by
    rcases pairLt_total a b with x | x | x
    · exact .inl (fun y => pairLt_irrefl _ (pairLt_trans x y))
    · subst x; exact .inl (fun x => pairLt_irrefl _ x)
    · exact .inr (fun y => pairLt_irrefl _ (pairLt_trans x y))⟩
  have htr : ∀ a b c : R × Nat, ¬ pairLt b a → ¬ pairLt c b → ¬ pairLt c a := by
    intro a b c h1 h2 h3
    rcases pairLt_total a b with x | x | x
    · exact h2 (pairLt_trans h3 x)
    · exact h2 (x ▸ h3)
    · exact h1 x
  have : IsTrans (R × Nat) (fun a b : R × Nat => ¬ pairLt b a) := ⟨fun a b c => htr a b c⟩
  have key : ∀ cs : List (R × Nat), ∃ rest, cs.Perm (rest ++
        drainHeap H (cs.foldl (keepLargest H N) []).length (cs.foldl (keepLargest H N) [])) ∧
      (rest ++ drainHeap H (cs.foldl (keepLargest H N) []).length (cs.foldl (keepLargest H N) [])).Pairwise
        (fun a b => ¬ pairLt b a) ∧
      (drainHeap H (cs.foldl (keepLargest H N) []).length (cs.foldl (keepLargest H N) [])).length = min N cs.length := by
    intro cs
    obtain ⟨hh, hl, rest, hp, hb⟩ := keepLargest_fold H N cs [] [] [] H.heap_nil (by simp) (by simp) (by simp)
    obtain ⟨d1, d2⟩ := drainHeap_spec H _ _ hh rfl
    rw [List.nil_append] at hl hp
    have hsort := List.perm_insertionSort (fun a b : R × Nat => ¬ pairLt b a) rest
    refine ⟨rest.insertionSort fun a b => ¬ pairLt b a, ?_, ?_, ?_⟩
    · exact hp.trans (List.perm_append_comm.trans (hsort.symm.append d1.symm))
    · refine List.pairwise_append.mpr ⟨List.pairwise_insertionSort _ _, d2, fun a ha b hb' => ?_⟩
      exact hb b (d1.mem_iff.mp hb') a (hsort.mem_iff.mp ha)
    · rw [d1.length_eq, hl]
  obtain ⟨r, p, w, l⟩ := key cs
  obtain ⟨r', p', w', l'⟩ := key cs'
  have he := List.Perm.eq_of_pairwise (le := fun a b : R × Nat => ¬ pairLt b a) (fun a b _ _ h1 h2 => by
    rcases pairLt_total a b with x | x | x
    · exact absurd x h2
    · exact x
    · exact absurd x h1) w' w (p'.symm.trans (h.trans p))
  refine (List.append_inj' he ?_).2
  rw [l, l', h.length_eq]

theorem explainScores_perm (w : Vec f R) (Y : List (Vec f R)) {row row' : List (Nat × R)} (h : row'.Perm row) :
    Agree (fun a b : List (R × Nat) => b.Perm a) (explainScores w Y row) (explainScores w Y row') := by
  by_cases hb : ∀ e ∈ row, ¬ e.2 < 0 → e.1 < Y.length
  · have key : ∀ row : List (Nat × R), (∀ e ∈ row, ¬ e.2 < 0 → e.1 < Y.length) → explainScores w Y row =
        .ok ((row.filter fun e => ¬ e.2 < 0).map fun e => (dot w (Y[e.1]?.getD 0) * e.2, e.1)) := by
      intro row
      induction row with
      | nil => intro _; rfl
      | cons e row ih =>
        intro hb
        obtain ⟨i, c⟩ := e
        have hr := ih fun e he => hb e (List.mem_cons_of_mem _ he)
        unfold explainScores
        rw [hr]
        by_cases hc : c < 0
        · simp [hc]
        · have hi := hb (i, c) List.mem_cons_self hc
          simp only [hc, if_false, List.getElem?_eq_getElem hi]
          have hc' : 0 ≤ c := not_lt.mp hc
          simp [hc', bind, Except.bind, pure, Except.pure, List.getElem?_eq_getElem hi]
    rw [key row hb, key row' fun e he => hb e (h.mem_iff.mp he)]
    exact .ok ((h.filter _).map _)
  · have key : ∀ row : List (Nat × R), ¬ (∀ e ∈ row, ¬ e.2 < 0 → e.1 < Y.length) → ∃ x, explainScores w Y row = .error x := by
      intro row
      induction row with
      | nil => intro h; exact absurd (by simp) h
      | cons e row ih =>
        intro hb
        obtain ⟨i, c⟩ := e
        unfold explainScores
        by_cases hc : c < 0
        · rw [if_pos hc]
          refine ih fun hall => hb fun e he hne => ?_
          rcases List.mem_cons.mp he with rfl | he
          · exact absurd hc hne
          · exact hall e he hne
        · rw [if_neg hc]
          cases hy : Y[i]? with
          | none => exact ⟨_, rfl⟩
          | some y =>
            have hi := (List.getElem?_eq_some_iff.mp hy).1
            obtain ⟨x, hx⟩ := ih fun hall => hb fun e he hne => by
              rcases List.mem_cons.mp he with rfl | he
              · exact hi
              · exact hall e he hne
            exact ⟨x, by simp only [hx]; rfl⟩
    obtain ⟨x, hx⟩ := key row hb
    obtain ⟨y, hy⟩ := key row' fun hall => hb fun e he => hall e (h.mem_iff.mpr he)
    rw [hx, hy]
    exact .error

/-- `explain` after the weights are known. -/
def explainRest (env : Env f R) (st : MFState f R) (itemid N : Nat) (A : Mat f R) (row : List (Nat × R)) :
    Except Err (Explanation f R) :=
  match st.item[itemid]? with
  | none => .error .indexError
  | some y =>
    match env.S.solve A y with
    | none => .error .valueError
    | some w => do
      let scores ← explainScores w st.item row
      pure ⟨(scores.map Prod.fst).sum, ((drainHeap env.H (scores.foldl (keepLargest env.H N) []).length
        (scores.foldl (keepLargest env.H N) [])).map fun c => (c.2, c.1)).reverse, A⟩

theorem explain_row (env : Env f R) (st : MFState f R) (userid itemid : Nat) (weights : Option (Mat f R)) (N : Nat) (C : SpRows R)
    {row : List (Nat × R)} (h : (applyAlpha env.p.alpha C)[userid]? = some row) :
    (explain env st userid C itemid weights N).1 =
      (match weights with
        | some A => .ok A
        | none => (rowEntries .indexError (getYtY st).2.item row).map fun es =>
          (linearEquation (getYtY st).1 env.p.regularization es).1) >>= fun A => explainRest env st itemid N A row := by
  unfold explain explainRest
  rw [h]
  simp only
  cases weights with
  | some A =>
    simp only [bind, Except.bind]
    cases st.item[itemid]? with
    | none => rfl
    | some y => simp only; cases env.S.solve A y <;> rfl
  | none =>
    simp only [bind, Except.bind]
    cases (rowEntries .indexError (getYtY st).2.item row).map fun es => (linearEquation (getYtY st).1 env.p.regularization es).1 with
    | error e => rfl
    | ok A =>
      simp only
      cases st.item[itemid]? with
      | none => rfl
      | some y => simp only; cases env.S.solve A y <;> rfl

/-- **C79** (`explain`).  The explanation (total, contributions and their order, weights) does not depend on the order in which the
ratings are stored. -/
theorem C79_explain (env : Env f R) (st : MFState f R) (userid itemid : Nat) (weights : Option (Mat f R)) (N : Nat) {C C' : SpRows R}
    (h : Canonical C) (h' : Canonical C') (hs : SameTable C C') :
    (explain env st userid C' itemid weights N).1.toOption = (explain env st userid C itemid weights N).1.toOption ∧
      (explain env st userid C' itemid weights N).2 = (explain env st userid C itemid weights N).2 := by
  have hrow := forall₂_get (applyAlpha_perm (canonical_perm h h' hs) env.p.alpha) userid
  generalize ha : (applyAlpha env.p.alpha C)[userid]? = a at hrow
  generalize hb : (applyAlpha env.p.alpha C')[userid]? = b at hrow
  cases hrow with
  | none =>
    unfold explain
    rw [ha, hb]
    exact ⟨rfl, rfl⟩
  | @some row row' hp =>
    refine ⟨?_, by unfold explain; rw [ha, hb]; cases weights <;> rfl⟩
    have hA : ∀ (G : Mat f R) (items : List (Vec f R)), Agree (fun x y => y = x)
        ((rowEntries .indexError items row).map fun es => (linearEquation G env.p.regularization es).1)
        ((rowEntries .indexError items row').map fun es => (linearEquation G env.p.regularization es).1) := by
      intro G items
      have := rowEntries_renamed .indexError .indexError (τ := Equiv.refl _) (Y := items) (Y' := items) (fun _ => rfl)
        (perm_as_renamed hp)
      revert this
      generalize rowEntries .indexError items row = a
      generalize rowEntries .indexError items row' = b
      intro hab
      cases hab with
      | error => exact .error
      | ok hab => exact .ok (by simp only [linearEquation_perm G _ hab])
    have hw : Agree (fun x y => y = x)
        (match weights with
          | some A => .ok A
          | none => (rowEntries .indexError (getYtY st).2.item row).map fun es =>
            (linearEquation (getYtY st).1 env.p.regularization es).1)
        (match weights with
          | some A => .ok A
          | none => (rowEntries .indexError (getYtY st).2.item row').map fun es =>
            (linearEquation (getYtY st).1 env.p.regularization es).1) := by
      cases weights with
      | some A => exact .ok rfl
      | none => exact hA _ _
    have hsc := fun w => explainScores_perm w st.item hp
    have hfin : ∀ (A : Mat f R), Agree (fun x y => y = x) (explainRest env st itemid N A row) (explainRest env st itemid N A row') := by
      intro A
      unfold explainRest
      cases st.item[itemid]? with
      | none => exact .error
      | some y =>
        simp only
        cases env.S.solve A y with
        | none => exact .error
        | some w =>
          refine (hsc w).bind fun scores scores' hsc => .ok ?_
          simp only [(hsc.map _).sum_eq, keepLargest_perm env.H N hsc]
    have := hw.bind (F := fun A => explainRest env st itemid N A row) (F' := fun A => explainRest env st itemid N A row') fun A _ e => by
      subst e
      exact hfin _
    rw [explain_row env st userid itemid weights N C ha, explain_row env st userid itemid weights N C' hb]
    exact this.toOption

/-- The two best contributions of a user with three items, in two orders. -/
example :
    let st : MFState 1 Rat := freshState ⟨[![5]], [![1], ![2], ![-1]]⟩
    let ex (C : SpRows Rat) := ((explain exampleEnv st 0 C 1 none 2).1.map fun e => (e.total, e.contributions)).toOption
    ex [[(1, 3), (2, 1), (0, 2)]] = ex [[(0, 2), (1, 3), (2, 1)]] ∧ ex [[(0, 2), (1, 3), (2, 1)]] ≠ none := by
  decide +kernel

/-! ## Queries -/

/-- **C79** (`recommend` of the factor models).  `user_items` may be stored in any order: for one user or many, with any filters, with
`items`, and with recalculated factors (`C79_recalculate` gives the hypothesis for ALS). -/
theorem C79_recommend (H : HeapImpl (R × Nat) pairLt) (neginf : R) (m : Factors f R) (recalc : SpRows R → Except Err (List (Vec f R)))
    (userid : Ids) {C C' : SpRows R} (h : Canonical C) (h' : Canonical C') (hs : SameTable C C')
    (hrec : (recalc C').toOption = (recalc C).toOption) (N : Nat) (fl : Bool) (fi : Option PyFilter) (recalculate : Bool)
    (items : Option (List Int)) :
    (recommend H neginf m recalc userid (some C') N fl fi recalculate items).toOption =
      (recommend H neginf m recalc userid (some C) N fl fi recalculate items).toOption := by
  have hp := canonical_perm h h' hs
  have hc : checkUserItems userid (some C') (fl || recalculate) = checkUserItems userid (some C) (fl || recalculate) := by
    unfold checkUserItems
    simp only [hs.1]
  have hu : Agree (fun x y => y = x) (userFactor m recalc userid (some C) recalculate) (userFactor m recalc userid (some C') recalculate) := by
    unfold userFactor
    split
    · simp only
      revert hrec
      generalize recalc C = a
      generalize recalc C' = b
      intro hab
      cases a <;> cases b <;> first | exact .error | cases hab
      exact .ok rfl
    · exact .refl _
  unfold recommend
  rw [hc]
  refine ((Agree.refl _).bind fun _ _ _ => hu.bind fun _ user e => ?_).toOption
  subst e
  refine (Agree.refl _).bind fun _ t e => ?_
  subst e
  simp only
  rw [topk_liked_perm H neginf t.2.1 user t.1 none (likedPositions fl (some C) t.2.2) (likedPositions fl (some C') t.2.2)]
  · exact .refl _
  · unfold likedPositions
    split
    · refine .some ?_
      clear hc hu hs h h' hrec
      cases t.2.2 with
      | none =>
        simp only
        rw [List.forall₂_map_left_iff, List.forall₂_map_right_iff]
        exact hp.imp fun _ _ h => h.map _
      | some its =>
        simp only
        rw [List.forall₂_map_left_iff, List.forall₂_map_right_iff]
        exact hp.imp fun _ _ h => ((h.map _).filter _).map _
    · exact .none

/-- A choice of items, liked ones filtered. -/
example :
    let m : Factors 1 Rat := ⟨[![1]], [![3], ![2], ![1], ![4]]⟩
    let best (C : SpRows Rat) := recommend insertionHeap (-100) m noRecalc (.one 0) (some C) 1 true none false (some [2, 1, 0])
    best [[(1, 1), (0, 2)]] = .ok (.one [(2, 1)]) ∧ best [[(0, 2), (1, 1)]] = .ok (.one [(2, 1)]) := by
  decide +kernel

/-- **C79** (filtering).  Without `items` and recalculation only the stored cells of `user_items` matter: the entries may come in any
order, in parts, and with any values. -/
theorem C79_filter (H : HeapImpl (R × Nat) pairLt) (neginf : R) (m : Factors f R) (recalc : SpRows R → Except Err (List (Vec f R)))
    (userid : Ids) {C C' : SpRows R} (hs : SameStored C C') (N : Nat) (fl : Bool) (fi : Option PyFilter) :
    recommend H neginf m recalc userid (some C') N fl fi false none = recommend H neginf m recalc userid (some C) N fl fi false none := by
  have hc : checkUserItems userid (some C') (fl || false) = checkUserItems userid (some C) (fl || false) := by
    unfold checkUserItems
    simp only [hs.1]
  have hm : ∀ idx q, maskedRow neginf m.item none (likedPositions fl (some C') none) (fi.map PyFilter.ids) idx q =
      maskedRow neginf m.item none (likedPositions fl (some C) none) (fi.map PyFilter.ids) idx q := by
    intro idx q
    unfold likedPositions
    cases fl with
    | false => rfl
    | true =>
      simp only [if_true, Option.map_some]
      unfold maskedRow
      simp only [List.getElem?_map]
      by_cases hi : idx < C.length
      · have hi' : idx < C'.length := hs.1 ▸ hi
        rw [List.getElem?_eq_getElem hi, List.getElem?_eq_getElem hi']
        simp only [Option.map_some]
        have : ∀ i, i ∈ C'[idx].map Prod.fst ↔ i ∈ C[idx].map Prod.fst := by
          intro i
          have := hs.2 idx i
          unfold StoredAt Stored at this
          rw [List.getD_eq_getElem?_getD, List.getD_eq_getElem?_getD, List.getElem?_eq_getElem hi, List.getElem?_eq_getElem hi'] at this
          simpa using this.symm
        simp only [assignAt_sameMembers neginf this]
      · have hl := hs.1
        rw [List.getElem?_eq_none (l := C') (by omega), List.getElem?_eq_none (l := C) (by omega)]
  unfold recommend
  rw [hc]
  unfold restrictItems userFactor topk topkFlat topkBatches topkBatch
  simp only [Bool.false_eq_true, if_false, bind, Except.bind, hm]

/-- Two items liked, stored in parts and with other values; the third is recommended. -/
example :
    let m : Factors 1 Rat := ⟨[![1]], [![3], ![2], ![1]]⟩
    let C : SpRows Rat := [[(0, 1), (1, 1)]]
    let C' : SpRows Rat := [[(1, 7), (0, -2), (1, 0)]]
    SameStored C C' ∧
      (recommend insertionHeap (-100) m noRecalc (.one 0) (some C') 1 true none false none) = .ok (.one [(2, 1)]) := by
  refine ⟨⟨rfl, fun u i => ?_⟩, by decide +kernel⟩
  rcases u with - | u
  · have h1 : (∃ v : Rat, (i, v) ∈ [(0, (1 : Rat)), (1, 1)]) ↔ i ∈ [0, 1] := by
      simp [exists_or]
    have h2 : (∃ v : Rat, (i, v) ∈ [(1, (7 : Rat)), (0, -2), (1, 0)]) ↔ i ∈ [1, 0, 1] := by
      simp [exists_or]
    refine h1.trans (Iff.trans ?_ h2.symm)
    simp only [List.mem_cons, List.not_mem_nil, or_false]
    tauto
  · exact Iff.rfl

/-! ## Metrics -/

/-- **C79** (evaluation).  Only the stored cells of the test matrix matter. -/
theorem C79_metrics (recommend : List Nat → Except Err (List (List Int))) (B K items : Nat) (cg : Nat → R) {C C' : SpRows R}
    (hs : SameStored C C') : rankingMetrics recommend B K items cg C' = rankingMetrics recommend B K items cg C := by
  have hmem : ∀ u i, i ∈ ((C'.getD u []).map Prod.fst).dedup ↔ i ∈ ((C.getD u []).map Prod.fst).dedup := by
    intro u i
    have := hs.2 u i
    unfold StoredAt Stored at this
    simpa using this.symm
  have hlen : ∀ u, ((C'.getD u []).map Prod.fst).dedup.length = ((C.getD u []).map Prod.fst).dedup.length := by
    intro u
    exact ((List.perm_ext_iff_of_nodup (List.nodup_dedup _) (List.nodup_dedup _)).mpr (hmem u)).length_eq
  have hany : ∀ u (x : Int), (((C'.getD u []).map Prod.fst).dedup.any fun c => (c : Int) == x) =
      ((C.getD u []).map Prod.fst).dedup.any fun c => (c : Int) == x := by
    intro u x
    rw [Bool.eq_iff_iff, List.any_eq_true, List.any_eq_true]
    simp only [hmem]
  have huser : ∀ u ids s, metricsUser K items cg (C'.getD u []) ids s = metricsUser K items cg (C.getD u []) ids s := by
    intro u ids s
    have hstep : ∀ idcg, metricsStep ((C'.getD u []).map Prod.fst).dedup cg idcg =
        metricsStep ((C.getD u []).map Prod.fst).dedup cg idcg := by
      intro idcg
      funext s p
      unfold metricsStep
      rw [hany]
    unfold metricsUser
    simp only [hlen, hstep]
  have hbatch : ∀ us rows s, metricsBatch K items cg C' us rows s = metricsBatch K items cg C us rows s := by
    intro us
    induction us with
    | nil => intro rows s; rfl
    | cons u us ih =>
      intro rows s
      cases rows with
      | nil => rfl
      | cons row rows =>
        unfold metricsBatch
        simp only [huser, ih]
  have hloop : ∀ n us s, metricsLoop recommend B K items cg C' n us s = metricsLoop recommend B K items cg C n us s := by
    intro n
    induction n with
    | zero => intro us s; cases us <;> rfl
    | succ n ih =>
      intro us s
      cases us with
      | nil => rfl
      | cons u us =>
        unfold metricsLoop
        simp only [hbatch, ih]
  have husers : testUsers C' = testUsers C := by
    unfold testUsers
    rw [← hs.1]
    refine List.filter_congr fun u _ => ?_
    have hz : ∀ row : List (Nat × R), row.length = 0 ↔ ∀ i, ¬ Stored row i := by
      intro row
      cases row with
      | nil => simp [Stored]
      | cons e row => simpa [Stored] using ⟨e.1, e.2, fun h => absurd rfl h⟩
    have : (C'.getD u []).length = 0 ↔ (C.getD u []).length = 0 := by
      rw [hz, hz]
      exact forall_congr' fun i => not_congr (hs.2 u i).symm
    rw [decide_eq_decide]
    omega
  unfold rankingMetrics
  simp only [husers, hloop]

/-- A test matrix with one rating in two parts. -/
example :
    let rank := fun us : List Nat => (.ok (us.map fun _ => [2, 0]) : Except Err (List (List Int)))
    let cg := fun i : Nat => 1 / ((i : Rat) + 1)
    rankingMetrics rank 10 2 3 cg [[(0, 1), (2, 1), (0, 4)], []] = rankingMetrics rank 10 2 3 cg [[(2, 1), (0, 5)], []] ∧
      (rankingMetrics rank 10 2 3 cg [[(2, 1), (0, 5)], []]).toOption ≠ none := by
  decide +kernel

/-! ## BPR and LMF -/

theorem sort_perm_eq {l l' : List Nat} (h : l'.Perm l) : l'.insertionSort (· ≤ ·) = l.insertionSort (· ≤ ·) :=
  List.Perm.eq_of_pairwise (le := (· ≤ ·)) (fun _ _ _ _ h1 h2 => le_antisymm h1 h2) (List.pairwise_insertionSort _ _)
    (List.pairwise_insertionSort _ _) ((List.perm_insertionSort _ _).trans (h.trans (List.perm_insertionSort _ _).symm))

theorem bprRows_true (rows : List (List Nat)) : bprRows true rows = rows.map fun r => r.insertionSort (· ≤ ·) := by
  unfold bprRows
  split
  · rfl
  · next h =>
    simp only [Bool.true_and, Bool.not_eq_true', Bool.not_eq_false, List.all_eq_true, decide_eq_true_eq] at h
    symm
    conv_rhs => rw [← List.map_id rows]
    refine List.map_congr_left fun r hr => ?_
    exact List.Pairwise.insertionSort_eq (h r hr)

/-- **C79** (BPR).  With `verify_negative_samples` (the default) the rows are sorted first, so training reads exactly the same arrays
whatever the order: the same draws are possible, and they give the same model.  Without, the stored positions are permuted, and so must
be the draws (which are uniform over the positions). -/
theorem C79_bpr {Th : Type} [DecidableEq Th] [Fintype Th] (sig : R → R) (lr reg : R) (factors : Nat) {C C' : SpRows R} (h : Canonical C)
    (h' : Canonical C') (hs : SameTable C C') (randItem randUser : Nat → Nat → R) (item user : Option (Nat → Nat → R))
    (s : Th → BprScratch R) :
    (bprRows true (C'.map fun row => row.map Prod.fst) = bprRows true (C.map fun row => row.map Prod.fst) ∧
      ∀ epochs : List (BprEpoch Th),
        bprFit sig lr reg true factors randItem randUser (C'.map fun row => row.map Prod.fst) item user s epochs =
          bprFit sig lr reg true factors randItem randUser (C.map fun row => row.map Prod.fst) item user s epochs) ∧
    ∃ π : Equiv.Perm Nat,
      (∀ e : BprEpoch Th, e.Valid false (C.map fun row => row.map Prod.fst) factors →
        (e.rename (Equiv.refl _) (Equiv.refl _) π).Valid false (C'.map fun row => row.map Prod.fst) factors) ∧
      ∀ epochs : List (BprEpoch Th),
        bprFit sig lr reg false factors randItem randUser (C'.map fun row => row.map Prod.fst) item user s
            (epochs.map (BprEpoch.rename (Equiv.refl _) (Equiv.refl _) π)) =
          bprFit sig lr reg false factors randItem randUser (C.map fun row => row.map Prod.fst) item user s epochs := by
  have hp := canonical_perm h h' hs
  constructor
  · have e : bprRows true (C'.map fun row => row.map Prod.fst) = bprRows true (C.map fun row => row.map Prod.fst) := by
      rw [bprRows_true, bprRows_true, List.map_map, List.map_map]
      clear h h' hs
      induction hp with
      | nil => rfl
      | cons h _ ih =>
        rw [List.map_cons, List.map_cons, ih]
        congr 1
        exact sort_perm_eq (h.map _)
    refine ⟨e, fun epochs => ?_⟩
    unfold bprFit
    rw [e]
  · have hr : RenamedRows (Equiv.refl Nat) (Equiv.refl Nat) (C.map fun row => row.map Prod.fst) (C'.map fun row => row.map Prod.fst) :=
      RenamedMatrix.rows (forall₂_renamed hp)
    obtain ⟨π, -, -, hv, -, hfit⟩ := C67_bpr (Th := Th) sig lr reg false factors hr
    refine ⟨π, hv, fun epochs => ?_⟩
    funext c
    have := hfit randItem randItem randUser randUser item item user user (fun _ _ => rfl) (fun _ _ => rfl)
      (by cases item <;> constructor; intros; rfl) (by cases user <;> constructor; intros; rfl) s epochs c
    cases c <;> exact this

/-- Both orders are trained on the same rows. -/
example : bprRows true [[2, 0], [1]] = bprRows true [[0, 2], [1]] ∧ bprRows false [[2, 0], [1]] ≠ bprRows false [[0, 2], [1]] := by
  decide +kernel

/-- The rows after `sort_indices` (`implicit/cpu/lmf.pyx:136-142`). -/
def sortedRows (C : SpRows R) : SpRows R := C.map fun row => row.insertionSort fun a b => a.1 ≤ b.1

omit [LinearOrder R] [Field R] in
theorem sort_entries_eq {row row' : List (Nat × R)} (hnd : (row.map Prod.fst).Nodup) (h : row'.Perm row) :
    (row'.insertionSort fun a b => a.1 ≤ b.1) = row.insertionSort fun a b => a.1 ≤ b.1 := by
  have : Std.Total (fun a b : Nat × R => a.1 ≤ b.1) := ⟨fun a b => le_total a.1 b.1⟩
  have : IsTrans (Nat × R) (fun a b : Nat × R => a.1 ≤ b.1) := ⟨fun _ _ _ => le_trans⟩
  have hperm := List.perm_insertionSort (fun a b : Nat × R => a.1 ≤ b.1)
  refine List.Perm.eq_of_pairwise (le := fun a b : Nat × R => a.1 ≤ b.1) (fun a b ha hb h1 h2 => ?_) (List.pairwise_insertionSort _ _)
    (List.pairwise_insertionSort _ _) ((hperm row').trans (h.trans (hperm row).symm))
  have ha' := h.mem_iff.mp ((hperm row').mem_iff.mp ha)
  have hb' := (hperm row).mem_iff.mp hb
  exact List.inj_on_of_nodup_map hnd ha' hb' (le_antisymm h1 h2)

/-- **C79** (LMF).  The matrix is sorted before training, so training does not depend on the order of the entries; the columns used to
train the items are the same before and after sorting. -/
theorem C79_lmf {factors : Nat} (sigm sqrt : R → R) (eps lr reg : R) (negProp : Int) (cols : Nat) {C C' : SpRows R} (h : Canonical C)
    (h' : Canonical C') (hs : SameTable C C') (randItem randUser : Nat → Vec (factors + 2) R)
    (item user : Option (List (Vec (factors + 2) R))) (draws : List LmfDraws) :
    transposeRows cols (sortedRows C) = transposeRows cols C ∧
      lmfFit sigm sqrt eps lr reg negProp cols (sortedRows C') randItem randUser item user draws =
        lmfFit sigm sqrt eps lr reg negProp cols (sortedRows C) randItem randUser item user draws := by
  constructor
  · unfold transposeRows sortedRows
    refine List.map_congr_left fun i _ => ?_
    rw [List.zipIdx_map, List.flatMap_map]
    refine List.flatMap_congr fun p hp => ?_
    simp only [Prod.map_fst, Prod.map_snd, id]
    congr 1
    have hrow := h p.1 (List.fst_mem_of_mem_zipIdx hp)
    have hperm := (List.perm_insertionSort (fun a b : Nat × R => a.1 ≤ b.1) p.1).filter fun e => e.1 == i
    have hle : (p.1.filter fun e => e.1 == i).length ≤ 1 := by
      have hnd : ((p.1.filter fun e => e.1 == i).map Prod.fst).Nodup := hrow.1.sublist (List.filter_sublist.map _)
      have hall : ∀ x ∈ (p.1.filter fun e => e.1 == i).map Prod.fst, x = i := by
        intro x hx
        obtain ⟨e, he, rfl⟩ := List.mem_map.mp hx
        simpa using (List.mem_filter.mp he).2
      generalize p.1.filter (fun e => e.1 == i) = l at hnd hall
      match l, hnd, hall with
      | [], _, _ => simp
      | [_], _, _ => simp
      | a :: b :: l, hnd, hall =>
        have h1 := hall a.1 (by simp)
        have h2 := hall b.1 (by simp)
        simp [h1, h2] at hnd
    revert hperm
    generalize p.1.filter (fun e => e.1 == i) = l at hle
    intro hperm
    match l, hle, hperm with
    | [], _, hperm => exact hperm.eq_nil
    | [a], _, hperm => exact hperm.eq_singleton
    | _ :: _ :: _, hle, _ => simp at hle
  · have : sortedRows C' = sortedRows C := by
      have hp := canonical_perm h h' hs
      clear hs h'
      unfold sortedRows
      induction hp with
      | nil => rfl
      | cons hr _ ih =>
        rw [List.map_cons, List.map_cons, ih fun row hrow => h row (List.mem_cons_of_mem _ hrow),
          sort_entries_eq (h _ List.mem_cons_self).1 hr]
    rw [this]

/-- Both orders give the same rows and the same columns. -/
example :
    let C : SpRows Rat := [[(2, 3), (0, 2)], [(1, 4), (0, 1)]]
    sortedRows C = [[(0, 2), (2, 3)], [(0, 1), (1, 4)]] ∧ transposeRows 3 C = [[(0, 2), (1, 1)], [(1, 4)], [(0, 3)]] := by
  decide +kernel

/-! ## Zeros and numbers stored in parts -/

/-- The matrix 1, 0 with the zero stored. -/
theorem zero_same : SameTable ([[(0, 1), (1, 0)]] : SpRows Rat) [[(0, 1)]] := by
  refine ⟨rfl, fun u i => ?_⟩
  rcases u with - | u <;> simp [entry, cell, sumAt]

/-- The matrix 3 with the 3 in two parts. -/
theorem parts_same : SameTable ([[(0, 1), (0, 2)]] : SpRows Rat) [[(0, 3)]] := by
  refine ⟨rfl, fun u i => ?_⟩
  rcases u with - | u
  · by_cases h : 0 = i
    · simp [entry, cell, sumAt, h]; norm_num
    · simp [entry, cell, sumAt, h]
  · simp [entry, cell, sumAt]

/-- **C79** violated: ALS treats a stored zero as confidence 0 instead of the confidence 1 of the cells that are not stored, so storing a
zero changes the model; on the CPU and on the GPU. -/
theorem C79_als_zero_violated :
    let p : ALSParams Rat := ⟨1, 1, false, true, 3, 1⟩
    let gp : GpuALSParams Rat := ⟨1, 1, 3, 1⟩
    let init : Factors 1 Rat := ⟨[![1]], [![1], ![1]]⟩
    let fit (C : SpRows Rat) := (alsFit (scalarSolver Rat) 0 p 2 C init).toOption.map fun m => m.user.map (· 0)
    let gpuFit (C : SpRows Rat) := (gpuAlsFit 0 gp 2 C init).toOption.map fun m => m.user.map (· 0)
    SameTable ([[(0, 1), (1, 0)]] : SpRows Rat) [[(0, 1)]] ∧
      fit [[(0, 1)]] = some [1 / 3] ∧ fit [[(0, 1), (1, 0)]] = some [1 / 2] ∧
      gpuFit [[(0, 1)]] ≠ gpuFit [[(0, 1), (1, 0)]] := by
  exact ⟨zero_same, by decide +kernel⟩

/-- **C79** violated: a confidence stored in two parts is not the sum of the parts in ALS (the code adds `c - 1` for each stored entry
instead of once): scipy's unsummed duplicates change the model; on the CPU and on the GPU. -/
theorem C79_als_parts_violated :
    let p : ALSParams Rat := ⟨1, 1, false, true, 3, 1⟩
    let gp : GpuALSParams Rat := ⟨1, 1, 3, 1⟩
    let init : Factors 1 Rat := ⟨[![1]], [![1]]⟩
    let fit (C : SpRows Rat) := (alsFit (scalarSolver Rat) 0 p 1 C init).toOption.map fun m => m.user.map (· 0)
    let gpuFit (C : SpRows Rat) := (gpuAlsFit 0 gp 1 C init).toOption.map fun m => m.user.map (· 0)
    SameTable ([[(0, 1), (0, 2)]] : SpRows Rat) [[(0, 3)]] ∧
      fit [[(0, 3)]] = some [3 / 4] ∧ fit [[(0, 1), (0, 2)]] = some [1] ∧ gpuFit [[(0, 3)]] ≠ gpuFit [[(0, 1), (0, 2)]] := by
  exact ⟨parts_same, by decide +kernel⟩

/-- **C79** violated: `recommend` filters a stored zero like an item the user likes, the metrics count it as relevant, and BPR and LMF
train it as liked (the start factors of the item are not zero). -/
theorem C79_zero_violated :
    let zero : SpRows Rat := [[(0, 1), (1, 0)]]
    let none' : SpRows Rat := [[(0, 1)]]
    let m : Factors 1 Rat := ⟨[![1]], [![3], ![2], ![1]]⟩
    let best (C : SpRows Rat) := recommend insertionHeap (-100) m noRecalc (.one 0) (some C) 1 true none false none
    let rank := fun us : List Nat => (.ok (us.map fun _ => [1, 2]) : Except Err (List (List Int)))
    let met (C : SpRows Rat) := (rankingMetrics rank 10 2 3 (fun i : Nat => 1 / ((i : Rat) + 1)) C).map (·.map)
    let bpr (C : SpRows Rat) := bprFit (Th := Fin 1) (fun x : Rat => x) 1 1 true 1 (fun _ _ => 1) (fun _ _ => 1)
      (C.map fun row => row.map Prod.fst) none none (fun _ => ⟨0, 0, 0, 0, 0, 0, 0, 0⟩) [] (.item 1 0)
    let lmf (C : SpRows Rat) := (lmfFit (factors := 1) (fun x : Rat => x) (fun x => x) 1 1 1 1 2 (sortedRows C) (fun _ _ => 2)
      (fun _ _ => 2) none none []).map fun st => st.item.factors.map fun v => v 0
    SameTable zero none' ∧
      best none' = .ok (.one [(1, 2)]) ∧ best zero = .ok (.one [(2, 1)]) ∧
      met none' = .ok 0 ∧ met zero = .ok (1 / 2) ∧
      bpr none' = 0 ∧ bpr zero ≠ 0 ∧
      lmf none' = .ok [2, 0] ∧ lmf zero = .ok [2, 2] := by
  exact ⟨zero_same, by decide +kernel⟩

end Implicit
