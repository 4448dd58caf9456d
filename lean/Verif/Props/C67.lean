import Verif.Lemmas.Symmetry
import Verif.Lemmas.Transpose
import Verif.Lemmas.Csr
import Verif.Lemmas.Rotation
import Verif.Lemmas.GpuQuery
import Verif.Model.GpuALS
import Verif.Model.ALSState
import Verif.Props.C13
import Verif.Props.C04
/-!
# C67 — numbers of users and items, and the basis of the factors, do not matter
-/

set_option linter.unusedSectionVars false

namespace Implicit

open Spec (Renamed RenamedMatrix Agree ValidRow)

variable {R : Type} [LinearOrder R] [Field R] {f : Nat}

/-- Factors with users renamed by `σ` and items by `τ`. -/
def Spec.RenamedFactors (σ τ : Equiv.Perm Nat) (m m' : Factors f R) : Prop :=
  Renamed σ m.user m'.user ∧ Renamed τ m.item m'.item

theorem _root_.Implicit.Spec.Agree.toOption {ε α : Type} {a b : Except ε α} (h : Agree (fun x y => y = x) a b) :
    b.toOption = a.toOption := by
  cases h with
  | ok h => rw [h]
  | error => rfl

/-- The loop over the rows of `X`, with the computation of one row `g`. -/
theorem sweep_renamed {σ τ : Equiv.Perm Nat} {C C' : SpRows R} (hC : RenamedMatrix σ τ C C') {X X' : List (Vec f R)}
    (hX : Renamed σ X X') (err : Err) (g g' : List (Nat × R) → Vec f R → Except Err (Vec f R))
    (hg : ∀ row row' x, row'.Perm (row.map fun e => (τ e.1, e.2)) → (g' row' x).toOption = (g row x).toOption) :
    Agree (Renamed σ)
      (X.zipIdx.mapM fun xu => match C[xu.2]? with
        | none => .error err
        | some row => g row xu.1)
      (X'.zipIdx.mapM fun xu => match C'[xu.2]? with
        | none => .error err
        | some row => g' row xu.1) := by
  refine mapM_renamed hX ?_
  intro x u hu
  have h := hC u
  cases h1 : C[u]? with
  | none =>
    rw [h1] at h
    cases h2 : C'[σ u]? with
    | none => simp only [h1, h2]
    | some row' => rw [h2] at h; cases h
  | some row =>
    rw [h1] at h
    cases h2 : C'[σ u]? with
    | none => rw [h2] at h; cases h
    | some row' =>
      rw [h2] at h
      simp only [h1, h2]
      cases h with
      | some h => exact hg row row' x h

theorem _root_.Implicit.Spec.Agree.bind {ε α β α' β' : Type} {r : α → β → Prop} {s : α' → β' → Prop} {a : Except ε α} {b : Except ε β}
    (h : Agree r a b) {F : α → Except ε α'} {F' : β → Except ε β'} (hF : ∀ x y, r x y → Agree s (F x) (F' y)) :
    Agree s (a >>= F) (b >>= F') := by
  cases h with
  | ok h => exact hF _ _ h
  | error => exact .error

theorem _root_.Implicit.Spec.Agree.refl {ε α : Type} (a : Except ε α) : Agree (fun x y => y = x) a a := by
  cases a with
  | ok x => exact .ok rfl
  | error e => exact .error

theorem isEmpty_renamed {τ : Equiv.Perm Nat} {row row' : List (Nat × R)} (hrow : row'.Perm (row.map fun e => (τ e.1, e.2))) :
    row'.isEmpty = row.isEmpty := by
  have := hrow.length_eq
  cases row <;> cases row' <;> simp_all

theorem cgRow_renamed {τ : Equiv.Perm Nat} {Y Y' : List (Vec f R)} (hY : Renamed τ Y Y') (G : Mat f R) (tol : R) (steps : Nat)
    {row row' : List (Nat × R)} (hrow : row'.Perm (row.map fun e => (τ e.1, e.2))) (x : Vec f R) :
    (cgRow G tol steps Y' row' x).toOption = (cgRow G tol steps Y row x).toOption := by
  unfold cgRow
  rw [isEmpty_renamed hrow]
  split
  · rfl
  · refine ((rowEntries_renamed _ _ hY hrow).bind ?_).toOption
    intro es es' h
    exact .ok (cgSolve_perm G tol steps h x)

theorem leastSquaresRow_renamed (S : Solver f R) {τ : Equiv.Perm Nat} {Y Y' : List (Vec f R)} (hY : Renamed τ Y Y') (G : Mat f R)
    (reg : R) {row row' : List (Nat × R)} (hrow : row'.Perm (row.map fun e => (τ e.1, e.2))) :
    (leastSquaresRow S G Y' reg row').toOption = (leastSquaresRow S G Y reg row).toOption := by
  unfold leastSquaresRow
  rw [isEmpty_renamed hrow]
  split
  · rfl
  · refine ((rowEntries_renamed _ _ hY hrow).bind ?_).toOption
    intro es es' h
    rw [linearEquation_perm G reg h]
    exact .refl _

theorem leastSquaresPyRow_renamed (S : Solver f R) {τ : Equiv.Perm Nat} {Y Y' : List (Vec f R)} (hY : Renamed τ Y Y') (G : Mat f R)
    (reg : R) {row row' : List (Nat × R)} (hrow : row'.Perm (row.map fun e => (τ e.1, e.2))) :
    (leastSquaresPyRow S G Y' reg row').toOption = (leastSquaresPyRow S G Y reg row).toOption := by
  unfold leastSquaresPyRow
  refine ((rowEntries_renamed _ _ hY hrow).bind ?_).toOption
  intro es es' h
  rw [linearEquation_perm G reg h]
  exact .refl _

theorem mapM_range_zipIdx {α β : Type} (X : List α) (g : Nat → Except Err β) :
    (List.range X.length).mapM g = X.zipIdx.mapM fun xu => g xu.2 := by
  have : List.range X.length = X.zipIdx.map Prod.snd := by
    rw [List.zipIdx_map_snd, List.range_eq_range']
  rw [this, List.mapM_map]
  rfl

/-- The four solvers. -/
theorem alsSolver_renamed (S : Solver f R) (tol : R) (p : ALSParams R) {σ τ : Equiv.Perm Nat} {C C' : SpRows R}
    (hC : RenamedMatrix σ τ C C') {X X' Y Y' : List (Vec f R)} (hX : Renamed σ X X') (hY : Renamed τ Y Y') (reg : R) :
    Agree (Renamed σ) (alsSolver S tol p C X Y reg) (alsSolver S tol p C' X' Y' reg) := by
  unfold alsSolver
  split
  · split
    · unfold leastSquaresCG
      rw [gram_perm hY.perm]
      exact sweep_renamed hC hX _ _ _ fun row row' x h => cgRow_renamed hY _ _ _ h x
    · unfold leastSquaresCGPy
      rw [gram_perm hY.perm]
      refine sweep_renamed hC hX _
        (fun row x => rowEntries .indexError Y row >>= fun es => pure (cgSolve (regularised (gram Y) reg) tol p.cgSteps es x))
        (fun row x => rowEntries .indexError Y' row >>= fun es => pure (cgSolve (regularised (gram Y) reg) tol p.cgSteps es x))
        fun row row' x h => ?_
      refine ((rowEntries_renamed _ _ hY h).bind ?_).toOption
      intro es es' h
      exact .ok (cgSolve_perm _ tol _ h x)
  · split
    · unfold leastSquares leastSquaresNative
      rw [gram_perm hY.perm, mapM_range_zipIdx, mapM_range_zipIdx]
      exact sweep_renamed hC hX _ (fun row _ => leastSquaresRow S (gram Y) Y reg row)
        (fun row _ => leastSquaresRow S (gram Y) Y' reg row) fun row row' x h => leastSquaresRow_renamed S hY _ _ h
    · unfold leastSquaresPy
      rw [gram_perm hY.perm, mapM_range_zipIdx, mapM_range_zipIdx]
      exact sweep_renamed hC hX _ (fun row _ => leastSquaresPyRow S (gram Y) Y reg row)
        (fun row _ => leastSquaresPyRow S (gram Y) Y' reg row) fun row row' x h => leastSquaresPyRow_renamed S hY _ _ h

theorem alsTrace_renamed (S : Solver f R) (tol : R) (p : ALSParams R) {σ τ : Equiv.Perm Nat} {C C' D D' : SpRows R}
    (hC : RenamedMatrix σ τ C C') (hD : RenamedMatrix τ σ D D') (reg : R) (n : Nat) {m m' : Factors f R}
    (hm : Spec.RenamedFactors σ τ m m') :
    Agree (List.Forall₂ (Spec.RenamedFactors σ τ)) (alsTrace (alsSolver S tol p) C D reg n m)
      (alsTrace (alsSolver S tol p) C' D' reg n m') := by
  induction n generalizing m m' with
  | zero => exact .ok .nil
  | succ n ih =>
    unfold alsTrace
    refine Agree.bind (r := Spec.RenamedFactors σ τ) ?_ ?_
    · unfold alsIteration
      refine (alsSolver_renamed S tol p hC hm.1 hm.2 reg).bind fun X X' hX => ?_
      refine (alsSolver_renamed S tol p hD hm.2 hX reg).bind fun Y Y' hY => ?_
      exact .ok ⟨hX, hY⟩
    · intro x x' hx
      refine (ih hx).bind fun l l' hl => ?_
      exact .ok (.cons hx hl)

theorem applyAlpha_renamed {σ τ : Equiv.Perm Nat} {C C' : SpRows R} (hC : RenamedMatrix σ τ C C') (alpha : R) :
    RenamedMatrix σ τ (applyAlpha alpha C) (applyAlpha alpha C') := by
  unfold applyAlpha
  split
  · intro u
    unfold scaleRows
    rw [List.getElem?_map, List.getElem?_map]
    have h := hC u
    revert h
    generalize C[u]? = a
    generalize C'[σ u]? = b
    intro h
    cases h with
    | none => exact .none
    | some h =>
      refine .some ?_
      have := h.map fun e : Nat × R => (e.1, alpha * e.2)
      simpa [List.map_map, Function.comp_def] using this
  · exact hC

theorem forall₂_getLast {α β : Type} {r : α → β → Prop} {l : List α} {l' : List β} (h : List.Forall₂ r l l') {a : α} {b : β}
    (hab : r a b) : r (l.getLast?.getD a) (l'.getLast?.getD b) := by
  induction h generalizing a b with
  | nil => exact hab
  | cons h t ih =>
    rw [List.getLast?_cons, List.getLast?_cons]
    exact ih h

/-- **C67** (renaming, CPU training).  Renaming users and items of the training matrix (in any order of the stored entries) and of
the initial factors renames the trained factors: for every solver, every number of iterations and all data, valid or not. -/
theorem C67_rename (S : Solver f R) (tol : R) (p : ALSParams R) (cols : Nat) {σ τ : Equiv.Perm Nat} (hτ : ∀ i, τ i < cols ↔ i < cols)
    {C C' : SpRows R} (hC : RenamedMatrix σ τ C C') {init init' : Factors f R} (hi : Spec.RenamedFactors σ τ init init') :
    Agree (Spec.RenamedFactors σ τ) (alsFit S tol p cols C init) (alsFit S tol p cols C' init') := by
  unfold alsFit
  have hA := applyAlpha_renamed hC p.alpha
  refine (alsTrace_renamed S tol p hA (transposeRows_renamed hA hτ) p.regularization p.iterations hi).bind fun l l' hl => ?_
  exact .ok (forall₂_getLast hl hi)

theorem gpuLeastSquares_renamed (tol : R) (steps : Nat) (G : Mat f R) (cols : Nat) {σ τ : Equiv.Perm Nat} {C C' : SpRows R}
    (hC : RenamedMatrix σ τ C C') (hlen : C'.length = C.length) {X X' Y Y' : List (Vec f R)} (hX : Renamed σ X X')
    (hY : Renamed τ Y Y') :
    Agree (Renamed σ) (gpuLeastSquares tol steps G cols C X Y) (gpuLeastSquares tol steps G cols C' X' Y') := by
  unfold gpuLeastSquares
  rw [hX.length, hY.length, hlen]
  split
  · exact .error
  · split
    · exact .error
    · exact sweep_renamed hC hX _ _ _ fun row row' x h => cgRow_renamed hY _ _ _ h x

/-- **C67** (renaming, GPU training). -/
theorem C67_rename_gpu (tol : R) (p : GpuALSParams R) (cols : Nat) {σ τ : Equiv.Perm Nat} (hτ : ∀ i, τ i < cols ↔ i < cols)
    {C C' : SpRows R} (hC : RenamedMatrix σ τ C C') {init init' : Factors f R} (hi : Spec.RenamedFactors σ τ init init') :
    Agree (Spec.RenamedFactors σ τ) (gpuAlsFit tol p cols C init) (gpuAlsFit tol p cols C' init') := by
  have hlen : C'.length = C.length := by
    refine card_lt_eq (σ := σ) fun u => ?_
    have h := hC u
    rw [← not_iff_not, not_lt, not_lt, ← List.getElem?_eq_none_iff, ← List.getElem?_eq_none_iff]
    revert h
    generalize C[u]? = a
    generalize C'[σ u]? = b
    intro h
    cases h <;> simp
  have hT := transposeRows_renamed hC hτ
  unfold gpuAlsFit
  rw [hlen]
  generalize p.iterations = n
  induction n generalizing init init' with
  | zero => exact .ok hi
  | succ n ih =>
    unfold gpuIterations
    refine Agree.bind (r := Spec.RenamedFactors σ τ) ?_ (fun x y h => ih h)
    unfold gpuIteration
    rw [gram_perm hi.2.perm]
    refine (gpuLeastSquares_renamed tol _ _ _ hC hlen hi.1 hi.2).bind fun X X' hX => ?_
    rw [gram_perm hX.perm]
    refine (gpuLeastSquares_renamed tol _ _ _ hT (by rw [transpose_length, transpose_length]) hi.2 hX).bind fun Y Y' hY => ?_
    exact .ok ⟨hX, hY⟩

/-! ## Renaming and recommendations -/

theorem ranking_renamed {N : Nat} {E E' : Nat → Prop} {sc sc' : Nat → Option R} {out : List (Nat × R)} (τ : Equiv.Perm Nat)
    (hE : ∀ i, E' (τ i) ↔ E i) (hsc : ∀ i, sc' (τ i) = sc i) (h : Spec.IsRanking N E sc out) :
    Spec.IsRanking N E' sc' (out.map fun p => (τ p.1, p.2)) := by
  have hm : (out.map fun p => (τ p.1, p.2)).map Prod.fst = (out.map Prod.fst).map τ := by
    simp [List.map_map, Function.comp_def]
  have hmem : ∀ i, i ∈ (out.map Prod.fst).map τ ↔ τ.symm i ∈ out.map Prod.fst := by
    intro i
    constructor
    · intro h
      obtain ⟨j, hj, rfl⟩ := List.mem_map.mp h
      simpa using hj
    · intro h
      exact List.mem_map.mpr ⟨_, h, by simp⟩
  refine ⟨?_, ?_, ?_, ?_, ?_, ?_⟩
  · intro q hq
    obtain ⟨p, hp, rfl⟩ := List.mem_map.mp hq
    obtain ⟨h1, h2⟩ := h.mem p hp
    exact ⟨(hE _).mpr h1, by rw [← h2]; exact hsc _⟩
  · rw [hm]
    exact h.distinct.map τ.injective
  · rw [List.pairwise_map]
    exact h.sorted
  · simpa using h.atMost
  · intro hlt i hi
    rw [hm, hmem]
    refine h.complete (by simpa using hlt) _ ?_
    rw [← hE]; simpa using hi
  · intro i s hi hs hnot q hq
    obtain ⟨p, hp, rfl⟩ := List.mem_map.mp hq
    rw [hm, hmem] at hnot
    refine h.best (τ.symm i) s (by rw [← hE]; simpa using hi) (by rw [← hsc]; simpa using hs) hnot p hp

/-- **C67** (renaming, recommendations).  On renamed factors, with the liked items and the filter renamed, `recommend` answers for the
renamed user with the same scores; without ties, with the renamed items. -/
theorem C67_recommend_partial (H : HeapImpl (R × Nat) pairLt) (neginf : R) {σ τ : Equiv.Perm Nat} (m m' : Factors f R)
    (hm : Spec.RenamedFactors σ τ m m') (recalc recalc' : SpRows R → Except Err (List (Vec f R)))
    (u : Nat) (x : Vec f R) (hu : m.user[u]? = some x)
    (liked liked' : List (Nat × R)) (hl : liked'.Perm (liked.map fun e => (τ e.1, e.2)))
    (hliked : ∀ e ∈ liked, e.1 < m.item.length)
    (F F' : List Nat) (hFF : F'.Perm (F.map τ)) (hF : ∀ i ∈ F, i < m.item.length)
    (hlow : ∀ y ∈ m.item, neginf < dot x y)
    (N : Nat) (hN : 1 ≤ N)
    (hcard : N ≤ ((List.range m.item.length).filter (fun i => decide (i ∉ liked.map Prod.fst ∧ i ∉ F))).length) :
    ∃ out out', recommend H neginf m recalc (.one u) (some [liked]) N true (some (.array F)) false none = .ok (.one out) ∧
      recommend H neginf m' recalc' (.one (σ u)) (some [liked']) N true (some (.array F')) false none = .ok (.one out') ∧
      out'.map Prod.snd = out.map Prod.snd ∧
      ((∀ (i j : Nat) y z, m.item[i]? = some y → m.item[j]? = some z → dot x y = dot x z → i = j) →
        out' = out.map fun p => (τ p.1, p.2)) := by
  have hmemL : ∀ i, τ i ∈ liked'.map Prod.fst ↔ i ∈ liked.map Prod.fst := by
    intro i
    rw [(hl.map Prod.fst).mem_iff, List.map_map]
    constructor
    · intro h
      obtain ⟨e, he, hi⟩ := List.mem_map.mp h
      rw [← τ.injective hi]
      exact List.mem_map_of_mem he
    · intro h
      obtain ⟨e, he, rfl⟩ := List.mem_map.mp h
      exact List.mem_map.mpr ⟨e, he, rfl⟩
  have hmemF : ∀ i, τ i ∈ F' ↔ i ∈ F := by
    intro i
    rw [hFF.mem_iff]
    exact ⟨fun h => by obtain ⟨j, hj, hi⟩ := List.mem_map.mp h; rwa [← τ.injective hi], fun h => List.mem_map_of_mem h⟩
  have hlen := hm.2.length
  have hrange : (List.range m'.item.length).Perm ((List.range m.item.length).map τ) := by
    refine (List.perm_ext_iff_of_nodup List.nodup_range (List.nodup_range.map τ.injective)).mpr ?_
    intro i
    rw [List.mem_range, List.mem_map]
    constructor
    · intro h
      refine ⟨τ.symm i, ?_, by simp⟩
      rw [List.mem_range, ← hm.2.lt_iff]
      simpa using h
    · rintro ⟨j, hj, rfl⟩
      exact (hm.2.lt_iff j).mpr (List.mem_range.mp hj)
  obtain ⟨out, e, l, -, r⟩ := C04_filter_partial H neginf m recalc u x hu liked hliked F hF hlow N hN hcard
  obtain ⟨out', e', l', -, r'⟩ := C04_filter_partial H neginf m' recalc' (σ u) x (by rw [hm.1 u, hu]) liked'
    (by
      intro e he
      obtain ⟨e0, h0, rfl⟩ := List.mem_map.mp (hl.mem_iff.mp he)
      exact (hm.2.lt_iff e0.1).mpr (hliked e0 h0)) F'
    (by
      intro i hi
      obtain ⟨j, hj, rfl⟩ := List.mem_map.mp (hFF.mem_iff.mp hi)
      exact (hm.2.lt_iff j).mpr (hF j hj))
    (fun y hy => hlow y (hm.2.perm.mem_iff.mp hy)) N hN (by
      refine hcard.trans (le_of_eq ?_)
      rw [(hrange.filter _).length_eq, List.filter_map, List.length_map]
      congr 1
      refine List.filter_congr ?_
      intro i _
      simp only [Function.comp_apply, hmemL, hmemF])
  refine ⟨out, out', e, e', ?_⟩
  have rr := ranking_renamed τ (E' := fun i => i < m'.item.length ∧ i ∉ liked'.map Prod.fst ∧ i ∉ F')
    (sc' := fun i => (m'.item[i]?).map (dot x)) (by
      intro i
      show (τ i < _ ∧ _ ∧ _) ↔ _
      rw [hm.2.lt_iff, hmemL, hmemF]) (by intro i; rw [hm.2 i]) r
  have hll : out'.length = (out.map fun p => (τ p.1, p.2)).length := by rw [List.length_map, l, l']
  constructor
  · rw [ranking_scores r' rr hll, List.map_map]; rfl
  · intro hinj
    refine ranking_unique r' rr hll ?_
    intro i j hi hj h
    have key : ∀ i, i < m'.item.length → ∃ y, m.item[τ.symm i]? = some y ∧ m'.item[i]? = some y := by
      intro i hi
      refine ⟨m'.item[i], ?_, List.getElem?_eq_getElem hi⟩
      rw [← hm.2]; simp [hi]
    obtain ⟨y, h1, h2⟩ := key i hi.1
    obtain ⟨z, h3, h4⟩ := key j hj.1
    rw [h2, h4] at h
    simp only [Option.map_some, Option.some.injEq] at h
    exact τ.symm.injective (hinj _ _ y z h1 h3 h)

/-! ## Rotating -/

open Spec (Orthonormal rotate)

/-- Factors in another orthonormal basis. -/
def Spec.rotated (Q : Mat f R) (m : Factors f R) : Factors f R := ⟨m.user.map (rotate Q), m.item.map (rotate Q)⟩

theorem cgRow_rotate {Q : Mat f R} (hQ : Orthonormal Q) (Y : List (Vec f R)) (reg tol : R) (steps : Nat) (row : List (Nat × R))
    (x : Vec f R) :
    cgRow (regularised (gram (Y.map (rotate Q))) reg) tol steps (Y.map (rotate Q)) row (rotate Q x) =
      (cgRow (regularised (gram Y) reg) tol steps Y row x).map (rotate Q) := by
  unfold cgRow
  split
  · show _ = Except.ok (rotate Q fun _ => 0)
    rw [rotate_zero]
  · rw [rowEntries_rotate]
    cases rowEntries .undefinedBehaviour Y row with
    | error e => rfl
    | ok es =>
      show Except.ok (cgSolve _ tol steps (rotateEntries Q es) (rotate Q x)) = Except.ok (rotate Q (cgSolve _ tol steps es x))
      rw [cgSolve_rotate hQ]

/-- The solution of a row in the other basis. -/
theorem solve_rotate [IsStrictOrderedRing R] (S : Solver f R) {Q : Mat f R} (hQ : Orthonormal Q) (Y : List (Vec f R)) {reg : R}
    (hreg : 0 < reg) {row : List (Nat × R)} (hv : ValidRow Y.length row) :
    ∃ es x, es = row.map (fun e => (Y[e.1]?.getD 0, e.2)) ∧
      S.solve (linearEquation (gram Y) reg es).1 (linearEquation (gram Y) reg es).2 = some x ∧
      S.solve (linearEquation (gram (Y.map (rotate Q))) reg (rotateEntries Q es)).1
        (linearEquation (gram (Y.map (rotate Q))) reg (rotateEntries Q es)).2 = some (rotate Q x) := by
  obtain ⟨es, hes⟩ : ∃ es, es = row.map (fun e => (Y[e.1]?.getD 0, e.2)) := ⟨_, rfl⟩
  have hlt' : ∀ e ∈ row, e.1 < (Y.map (rotate Q)).length := by intro e he; simpa using hv.lt e he
  have hes' : rotateEntries Q es = row.map (fun e => ((Y.map (rotate Q))[e.1]?.getD 0, e.2)) := by
    rw [hes, rotateEntries, List.map_map]
    refine List.map_congr_left fun e he => ?_
    have := hv.lt e he
    simp [List.getElem?_eq_getElem this]
  have hA := linearEquation_posDef Y row hv.nodup hv.lt hreg
  have hA' := linearEquation_posDef (Y.map (rotate Q)) row hv.nodup hlt' hreg
  rw [← hes] at hA
  rw [← hes'] at hA'
  obtain ⟨x, hx, hsx⟩ := S.spec _ (linearEquation (gram Y) reg es).2 hA
  obtain ⟨x', hx', hsx'⟩ := S.spec _ (linearEquation (gram (Y.map (rotate Q))) reg (rotateEntries Q es)).2 hA'
  refine ⟨es, x, hes, hx, ?_⟩
  rw [hx']
  congr 1
  refine posDef_unique hA' hsx' ?_
  rw [mulVec_linearEquation_rotate hQ, hsx, linearEquation_snd_rotate Q (gram Y)]

theorem leastSquaresRow_rotate [IsStrictOrderedRing R] (S : Solver f R) {Q : Mat f R} (hQ : Orthonormal Q) (Y : List (Vec f R))
    {reg : R} (hreg : 0 < reg) {row : List (Nat × R)} (hv : ValidRow Y.length row) :
    leastSquaresRow S (gram (Y.map (rotate Q))) (Y.map (rotate Q)) reg row =
      (leastSquaresRow S (gram Y) Y reg row).map (rotate Q) := by
  unfold leastSquaresRow
  split
  · show _ = Except.ok (rotate Q fun _ => 0)
    rw [rotate_zero]
  · obtain ⟨es, z, hes, h1, h2⟩ := solve_rotate S hQ Y hreg hv
    rw [rowEntries_rotate, rowEntries_eq hv.lt, ← hes]
    simp only [Except.map, bind, Except.bind, h1, h2]
    rfl

theorem alsSolver_rotate [IsStrictOrderedRing R] (S : Solver f R) (tol : R) (p : ALSParams R) {Q : Mat f R} (hQ : Orthonormal Q)
    {C : SpRows R} {X Y : List (Vec f R)} {reg : R}
    (h : p.useCg = true ∨ 0 < reg ∧ ∀ row ∈ C, ValidRow Y.length row) :
    alsSolver S tol p C (X.map (rotate Q)) (Y.map (rotate Q)) reg =
      (alsSolver S tol p C X Y reg).map (List.map (rotate Q)) := by
  have hzip : ∀ (err : Err) (g g' : List (Nat × R) → Vec f R → Except Err (Vec f R)),
      (∀ row ∈ C, ∀ x, g' row (rotate Q x) = (g row x).map (rotate Q)) →
      ((X.map (rotate Q)).zipIdx.mapM fun xu : Vec f R × Nat => (match C[xu.2]? with
        | none => .error err
        | some row => g' row xu.1 : Except Err (Vec f R))) =
      (X.zipIdx.mapM fun xu : Vec f R × Nat => (match C[xu.2]? with
        | none => .error err
        | some row => g row xu.1 : Except Err (Vec f R))).map (List.map (rotate Q)) := by
    intro err g g' h
    rw [List.zipIdx_map, List.mapM_map]
    refine mapM_map_result ?_
    rintro ⟨x, u⟩ _
    simp only [Function.comp_apply, Prod.map_apply, id]
    cases hu : C[u]? with
    | none => rfl
    | some row => exact h row (List.mem_of_getElem? hu) x
  unfold alsSolver
  split
  · split
    · unfold leastSquaresCG
      exact hzip _ _ _ fun row _ x => cgRow_rotate hQ Y reg tol _ row x
    · unfold leastSquaresCGPy
      refine hzip _
        (fun row x => rowEntries .indexError Y row >>= fun es => pure (cgSolve (regularised (gram Y) reg) tol p.cgSteps es x))
        (fun row x => rowEntries .indexError (Y.map (rotate Q)) row >>= fun es =>
          pure (cgSolve (regularised (gram (Y.map (rotate Q))) reg) tol p.cgSteps es x)) fun row _ x => ?_
      simp only [rowEntries_rotate]
      cases rowEntries .indexError Y row with
      | error e => rfl
      | ok es =>
        show Except.ok (cgSolve _ tol _ (rotateEntries Q es) (rotate Q x)) = Except.ok (rotate Q (cgSolve _ tol _ es x))
        rw [cgSolve_rotate hQ]
  · next hcg =>
    obtain ⟨hreg, hv⟩ := h.resolve_left hcg
    split
    · unfold leastSquares leastSquaresNative
      rw [mapM_range_zipIdx, mapM_range_zipIdx]
      refine hzip _ (fun row _ => leastSquaresRow S (gram Y) Y reg row)
        (fun row _ => leastSquaresRow S (gram (Y.map (rotate Q))) (Y.map (rotate Q)) reg row) fun row hrow x => ?_
      exact leastSquaresRow_rotate S hQ Y hreg (hv row hrow)
    · unfold leastSquaresPy
      rw [mapM_range_zipIdx, mapM_range_zipIdx]
      refine hzip _ (fun row _ => leastSquaresPyRow S (gram Y) Y reg row)
        (fun row _ => leastSquaresPyRow S (gram (Y.map (rotate Q))) (Y.map (rotate Q)) reg row) fun row hrow x => ?_
      unfold leastSquaresPyRow
      obtain ⟨es, z, hes, h1, h2⟩ := solve_rotate S hQ Y hreg (hv row hrow)
      rw [rowEntries_rotate, rowEntries_eq (hv row hrow).lt, ← hes]
      simp only [Except.map, bind, Except.bind, h1, h2]
      rfl


theorem alsTrace_rotate [IsStrictOrderedRing R] (S : Solver f R) (tol : R) (p : ALSParams R) {Q : Mat f R} (hQ : Orthonormal Q)
    {C D : SpRows R} {reg : R} {users items : Nat}
    (h : p.useCg = true ∨ 0 < reg ∧ (∀ row ∈ C, ValidRow items row) ∧ ∀ row ∈ D, ValidRow users row) (n : Nat) (m : Factors f R)
    (hu : m.user.length = users) (hi : m.item.length = items) :
    alsTrace (alsSolver S tol p) C D reg n (Spec.rotated Q m) =
      (alsTrace (alsSolver S tol p) C D reg n m).map (List.map (Spec.rotated Q)) := by
  induction n generalizing m with
  | zero => rfl
  | succ n ih =>
    unfold alsTrace alsIteration
    have e1 := alsSolver_rotate S tol p hQ (C := C) (X := m.user) (Y := m.item) (reg := reg) (by rw [hi]; tauto)
    simp only [Spec.rotated, bind, Except.bind] at e1 ⊢
    rw [e1]
    cases hX : alsSolver S tol p C m.user m.item reg with
    | error e => rfl
    | ok X =>
      simp only [Except.map]
      have hXl := alsSolver_length hX
      have e2 := alsSolver_rotate S tol p hQ (C := D) (X := m.item) (Y := X) (reg := reg) (by rw [hXl, hu]; tauto)
      rw [e2]
      cases hY : alsSolver S tol p D m.item X reg with
      | error e => rfl
      | ok Y =>
        have hYl := alsSolver_length hY
        have := ih ⟨X, Y⟩ (by simp [hXl, hu]) (by simp [hYl, hi])
        simp only [Spec.rotated] at this
        simp only [Except.map, pure, Except.pure, this]
        cases alsTrace (alsSolver S tol p) C D reg n ⟨X, Y⟩ <;> rfl

theorem applyAlpha_valid {alpha : R} {C : SpRows R} {n : Nat} (h : ∀ row ∈ C, ValidRow n row) :
    ∀ row ∈ applyAlpha alpha C, ValidRow n row := by
  unfold applyAlpha scaleRows
  split
  · intro row hrow
    obtain ⟨r, hr, rfl⟩ := List.mem_map.mp hrow
    refine ⟨?_, ?_⟩
    · have := (h r hr).nodup
      rwa [List.map_map]
    · intro e he
      obtain ⟨e', he', rfl⟩ := List.mem_map.mp he
      exact (h r hr).lt e' he'
  · exact h

/-- **C67** (rotating, CPU training).  Training from initial factors in another orthonormal basis gives the factors in the other
basis: for the conjugate gradient solvers on any data and any parameters, errors included; for the direct solvers on valid data
with positive regularisation. -/
theorem C67_rotate [IsStrictOrderedRing R] (S : Solver f R) (tol : R) (p : ALSParams R) {Q : Mat f R} (hQ : Orthonormal Q)
    (C : SpRows R) (cols : Nat) (init : Factors f R)
    (h : p.useCg = true ∨ 0 < p.regularization ∧ (∀ row ∈ C, ValidRow cols row) ∧ init.user.length = C.length ∧
      init.item.length = cols) :
    alsFit S tol p cols C (Spec.rotated Q init) = (alsFit S tol p cols C init).map (Spec.rotated Q) := by
  unfold alsFit
  have := alsTrace_rotate S tol p hQ (C := applyAlpha p.alpha C) (D := transposeRows cols (applyAlpha p.alpha C))
    (reg := p.regularization) (users := init.user.length) (items := init.item.length) (by
      rcases h with h | ⟨h1, h2, h3, h4⟩
      · exact .inl h
      · refine .inr ⟨h1, ?_, ?_⟩
        · rw [h4]; exact applyAlpha_valid h2
        · rw [h3, ← applyAlpha_rows p.alpha C]; exact transpose_valid (applyAlpha_valid h2)) p.iterations init rfl rfl
  simp only [bind, Except.bind]
  rw [this]
  cases alsTrace (alsSolver S tol p) (applyAlpha p.alpha C) (transposeRows cols (applyAlpha p.alpha C)) p.regularization p.iterations
    init with
  | error e => rfl
  | ok l =>
    simp only [Except.map, pure, Except.pure, List.getLast?_map]
    cases l.getLast? <;> rfl

theorem gpuLeastSquares_rotate (tol reg : R) (steps : Nat) {Q : Mat f R} (hQ : Orthonormal Q) (cols : Nat) (C : SpRows R)
    (X Y : List (Vec f R)) :
    gpuLeastSquares tol steps (regularised (gram (Y.map (rotate Q))) reg) cols C (X.map (rotate Q)) (Y.map (rotate Q)) =
      (gpuLeastSquares tol steps (regularised (gram Y) reg) cols C X Y).map (List.map (rotate Q)) := by
  unfold gpuLeastSquares
  rw [List.length_map, List.length_map]
  split
  · rfl
  · split
    · rfl
    · rw [List.zipIdx_map, List.mapM_map]
      refine mapM_map_result ?_
      rintro ⟨x, u⟩ _
      simp only [Function.comp_apply, Prod.map_apply, id]
      cases C[u]? with
      | none => rfl
      | some row => exact cgRow_rotate hQ Y reg tol steps row x

/-- **C67** (rotating, GPU training): on any data and any parameters, errors included. -/
theorem C67_rotate_gpu (tol : R) (p : GpuALSParams R) {Q : Mat f R} (hQ : Orthonormal Q) (cols : Nat) (C : SpRows R)
    (init : Factors f R) :
    gpuAlsFit tol p cols C (Spec.rotated Q init) = (gpuAlsFit tol p cols C init).map (Spec.rotated Q) := by
  unfold gpuAlsFit
  generalize p.iterations = n
  induction n generalizing init with
  | zero => rfl
  | succ n ih =>
    unfold gpuIterations gpuIteration
    simp only [bind, Except.bind]
    have e1 := gpuLeastSquares_rotate tol p.regularization p.cgSteps hQ cols C init.user init.item
    simp only [Spec.rotated] at ih ⊢
    rw [e1]
    cases gpuLeastSquares tol p.cgSteps (regularised (gram init.item) p.regularization) cols C init.user init.item with
    | error e => rfl
    | ok X =>
      simp only [Except.map]
      rw [gpuLeastSquares_rotate tol p.regularization p.cgSteps hQ]
      cases gpuLeastSquares tol p.cgSteps (regularised (gram X) p.regularization) C.length (transposeRows cols C) init.item X with
      | error e => rfl
      | ok Y => exact ih ⟨X, Y⟩

/-! ## What a caller sees does not depend on the basis -/

theorem scoreRow_rotate {Q : Mat f R} (hQ : Orthonormal Q) (items : List (Vec f R)) (norms : Option (List R)) (q : Vec f R) :
    scoreRow (items.map (rotate Q)) norms (rotate Q q) = scoreRow items norms q := by
  unfold scoreRow
  have : items.map (dot (rotate Q q) ∘ rotate Q) = items.map (dot q) := List.map_congr_left fun y _ => dot_rotate hQ q y
  cases norms with
  | none => simp only [List.map_map, this]
  | some ns => simp only [List.length_map, List.zipWith_map_left, dot_rotate hQ]

theorem topk_rotate {Q : Mat f R} (hQ : Orthonormal Q) (H : HeapImpl (R × Nat) pairLt) (neginf : R) (items query : List (Vec f R))
    (k : Nat) (norms : Option (List R)) (fq : Option (List (List Nat))) (fi : Option (List Nat)) :
    topk H neginf (items.map (rotate Q)) (query.map (rotate Q)) k norms fq fi = topk H neginf items query k norms fq fi := by
  have hb : ∀ start stop, topkBatch H neginf (items.map (rotate Q)) (query.map (rotate Q)) k norms fq fi start stop =
      topkBatch H neginf items query k norms fq fi start stop := by
    intro start stop
    unfold topkBatch
    rw [← List.map_drop, ← List.map_take, List.zipIdx_map, List.mapM_map, List.length_map]
    have : ((fun p : Vec f R × Nat => maskedRow neginf (items.map (rotate Q)) norms fq fi (start + p.2) p.1) ∘
        Prod.map (rotate Q) id) = fun p => maskedRow neginf items norms fq fi (start + p.2) p.1 := by
      funext p
      simp only [Function.comp_apply, Prod.map_fst, Prod.map_snd, id, maskedRow, scoreRow_rotate hQ]
    rw [this]
  unfold topk topkFlat topkBatches
  simp only [hb, List.length_map]

theorem gather_map {α β : Type} (g : α → β) (l : List α) (is : List Nat) :
    gather (l.map g) is = (gather l is).map (List.map g) := by
  induction is with
  | nil => rfl
  | cons i is ih =>
    simp only [gather, List.getElem?_map]
    cases l[i]? with
    | none => rfl
    | some x =>
      simp only [Option.map_some, ih, bind, Except.bind]
      cases gather l is <;> rfl

theorem gatherInt_map {α β : Type} (g : α → β) (l : List α) (is : List Int) :
    gatherInt (l.map g) is = (gatherInt l is).map (List.map g) := by
  induction is with
  | nil => rfl
  | cons i is ih =>
    have hp : pyIndex (l.map g) i = (pyIndex l i).map g := by
      unfold pyIndex
      simp only [List.length_map, List.getElem?_map]
      generalize (if i < 0 then i + (l.length : Int) else i) = j
      split
      · rfl
      · cases l[j.toNat]? <;> rfl
    simp only [gatherInt, ih, hp, bind, Except.bind]
    cases pyIndex l i with
    | error e => rfl
    | ok x => cases gatherInt l is <;> rfl

/-- **C67** (rotating, recommendations).  In another orthonormal basis `recommend` answers the same to every call, errors included;
a recalculated factor must be in the basis of the model (`C67_rotate_recalculate`). -/
theorem C67_rotate_recommend {Q : Mat f R} (hQ : Orthonormal Q) (H : HeapImpl (R × Nat) pairLt) (neginf : R) (m : Factors f R)
    (recalc recalc' : SpRows R → Except Err (List (Vec f R)))
    (userid : Ids) (userItems : Option (SpRows R)) (N : Nat) (filterLiked : Bool) (filterItems : Option PyFilter)
    (recalculate : Bool) (items : Option (List Int))
    (hr : recalculate = true → ∀ rows, userItems = some rows → recalc' rows = (recalc rows).map (List.map (rotate Q))) :
    recommend H neginf (Spec.rotated Q m) recalc' userid userItems N filterLiked filterItems recalculate items =
      recommend H neginf m recalc userid userItems N filterLiked filterItems recalculate items := by
  have hu : userFactor (Spec.rotated Q m) recalc' userid userItems recalculate =
      (userFactor m recalc userid userItems recalculate).map (List.map (rotate Q)) := by
    unfold userFactor
    split
    · cases userItems with
      | none => rfl
      | some rows => exact hr ‹_› rows rfl
    · exact gather_map _ _ _
  have hi : restrictItems (Spec.rotated Q m) N filterItems items =
      (restrictItems m N filterItems items).map fun r => (r.1, r.2.1.map (rotate Q), r.2.2) := by
    unfold restrictItems
    cases items with
    | none => rfl
    | some its =>
      simp only [Spec.rotated, gatherInt_map, List.length_map, bind, Except.bind]
      cases truthyOpt filterItems with
      | error e => rfl
      | ok b =>
        cases b with
        | true => rfl
        | false =>
          cases gatherInt m.item (its.insertionSort (· ≤ ·)) with
          | error e => rfl
          | ok fac => cases checkItems m.item.length (its.insertionSort (· ≤ ·)) <;> rfl
  unfold recommend
  rw [hu, hi]
  cases checkUserItems userid userItems (filterLiked || recalculate) with
  | error e => rfl
  | ok _ =>
    cases userFactor m recalc userid userItems recalculate with
    | error e => rfl
    | ok user =>
      cases restrictItems m N filterItems items with
      | error e => rfl
      | ok r =>
        simp only [Except.map, bind, Except.bind, topk_rotate hQ]

/-- **C67** (rotating, similarity).  `similar_items` and `similar_users` answer the same to every call. -/
theorem C67_rotate_similar {Q : Mat f R} (hQ : Orthonormal Q) (H : HeapImpl (R × Nat) pairLt) (neginf : R)
    (factors : List (Vec f R)) (norm : Vec f R → R) (hn : ∀ v w, dot v v = dot w w → norm v = norm w) (eps : R)
    (ids : Ids) (N : Nat) (filterItems : Option PyFilter) (items : Option (List Int)) :
    similar H neginf (factors.map (rotate Q)) (safeNorms norm eps (factors.map (rotate Q))) ids N filterItems items =
      similar H neginf factors (safeNorms norm eps factors) ids N filterItems items := by
  have hns : safeNorms norm eps (factors.map (rotate Q)) = safeNorms norm eps factors := by
    unfold safeNorms
    rw [List.map_map]
    refine List.map_congr_left fun v _ => ?_
    have : norm (rotate Q v) = norm v := hn _ _ (dot_rotate hQ v v)
    simp only [Function.comp_apply, this]
  rw [hns]
  generalize safeNorms norm eps factors = norms
  have hi : restrictSimilar (factors.map (rotate Q)) norms filterItems items =
      (restrictSimilar factors norms filterItems items).map fun r => (r.1.map (rotate Q), r.2) := by
    unfold restrictSimilar
    cases items with
    | none => rfl
    | some its =>
      simp only [gatherInt_map, List.length_map, bind, Except.bind]
      cases truthyOpt filterItems with
      | error e => rfl
      | ok b =>
        cases b with
        | true => rfl
        | false =>
          cases gatherInt factors its with
          | error e => rfl
          | ok fac =>
            cases gatherInt norms its with
            | error e => rfl
            | ok ns => cases checkItems factors.length its <;> rfl
  unfold similar
  rw [gather_map]
  cases gather factors ids.toList with
  | error e => rfl
  | ok query =>
    simp only [Except.map, bind, Except.bind]
    cases gather norms ids.toList with
    | error e => rfl
    | ok qn =>
      simp only [similarWith, hi, bind, Except.bind]
      cases restrictSimilar factors norms filterItems items with
      | error e => rfl
      | ok r => simp only [Except.map, similarityScore, topk_rotate hQ]

theorem lossRow_rotate {Q : Mat f R} (hQ : Orthonormal Q) (Y : List (Vec f R)) (es : List (Vec f R × R)) (x : Vec f R) :
    lossRow (gram (Y.map (rotate Q))) (rotateEntries Q es) (rotate Q x) = lossRow (gram Y) es x := by
  have key : ∀ (es : List (Vec f R × R)) (r : Vec f R) (a b : R),
      (rotateEntries Q es).foldl (lossStep (rotate Q x)) (rotate Q r, a, b) =
        (rotate Q (es.foldl (lossStep x) (r, a, b)).1, (es.foldl (lossStep x) (r, a, b)).2) := by
    intro es
    induction es with
    | nil => intro r a b; rfl
    | cons e es ih =>
      intro r a b
      have hs : lossStep (rotate Q x) (rotate Q r, a, b) (rotate Q e.1, e.2) =
          (rotate Q (lossStep x (r, a, b) e).1, (lossStep x (r, a, b) e).2) := by
        unfold lossStep
        simp only [dot_rotate hQ]
        split <;> simp only [rotate_axpy]
      show (rotateEntries Q es).foldl _ (lossStep (rotate Q x) (rotate Q r, a, b) (rotate Q e.1, e.2)) = _
      rw [hs, List.foldl_cons]
      exact ih _ _ _
  unfold lossRow
  rw [mulVec_gram_rotate hQ, key]
  simp only [dot_rotate hQ]

/-- **C67** (rotating, loss).  The loss reported while training does not depend on the basis. -/
theorem C67_rotate_loss {Q : Mat f R} (hQ : Orthonormal Q) (C : SpRows R) (cols : Nat) (X Y : List (Vec f R)) (reg : R) :
    calculateLoss C cols (X.map (rotate Q)) (Y.map (rotate Q)) reg = calculateLoss C cols X Y reg := by
  have h1 : (X.map (rotate Q)).zipIdx.mapM (lossPart C (Y.map (rotate Q))) = X.zipIdx.mapM (lossPart C Y) := by
    rw [List.zipIdx_map, List.mapM_map]
    have : lossPart C (Y.map (rotate Q)) ∘ Prod.map (rotate Q) id = lossPart C Y := by
      funext ⟨x, u⟩
      simp only [Function.comp_apply, Prod.map_apply, id, lossPart]
      cases C[u]? with
      | none => rfl
      | some row =>
        simp only [rowEntries_rotate, bind, Except.bind]
        cases rowEntries .undefinedBehaviour Y row with
        | error e => rfl
        | ok es => simp only [Except.map, lossRow_rotate hQ]
    rw [this]
  have h2 : ∀ Z : List (Vec f R), (Z.map (rotate Q)).map (fun x => dot x x) = Z.map fun x => dot x x := by
    intro Z
    rw [List.map_map]
    exact List.map_congr_left fun z _ => dot_rotate hQ z z
  unfold calculateLoss
  rw [h1, h2, h2]

/-- **C67** (rotating, recalculation).  `recalculate_user` and `recalculate_item` of the model in the other basis give the factor
in the other basis. -/
theorem C67_rotate_recalculate [IsStrictOrderedRing R] (env : Env f R) {Q : Mat f R} (hQ : Orthonormal Q) (m : Factors f R)
    (hreg : 0 < env.p.regularization) (ids : Ids) (rows : SpRows R) :
    ((∀ row ∈ rows, ValidRow m.item.length row) →
      (recalculateUser env (freshState (Spec.rotated Q m)) ids rows).1 =
        (recalculateUser env (freshState m) ids rows).1.map (List.map (rotate Q))) ∧
    ((∀ row ∈ rows, ValidRow m.user.length row) →
      (recalculateItem env (freshState (Spec.rotated Q m)) ids rows).1 =
        (recalculateItem env (freshState m) ids rows).1.map (List.map (rotate Q))) := by
  have key : ∀ (Y : List (Vec f R)), (∀ row ∈ rows, ValidRow Y.length row) →
      leastSquaresNative env.S (gram (Y.map (rotate Q))) (applyAlpha env.p.alpha rows) ids.count (Y.map (rotate Q))
        env.p.regularization =
      (leastSquaresNative env.S (gram Y) (applyAlpha env.p.alpha rows) ids.count Y env.p.regularization).map
        (List.map (rotate Q)) := by
    intro Y hv
    unfold leastSquaresNative
    refine mapM_map_result ?_
    intro u _
    cases hu : (applyAlpha env.p.alpha rows)[u]? with
    | none => rfl
    | some row =>
      exact leastSquaresRow_rotate env.S hQ Y hreg (applyAlpha_valid hv row (List.mem_of_getElem? hu))
  constructor
  · intro hv
    unfold recalculateUser
    split
    · rfl
    · exact key m.item hv
  · intro hv
    exact key m.user hv

/-- **C67** (ties), the code disagrees: which of two equally good items is recommended depends on their numbers.  Swapping the
numbers of two items with equal factors leaves the factors as they are; the call returns the same number, which now is the other
item.  For every heap. -/
theorem C67_ties_violated (H : HeapImpl (Rat × Nat) pairLt) (recalc : SpRows Rat → Except Err (List (Vec 1 Rat))) :
    Spec.RenamedFactors (Equiv.refl _) (Equiv.swap 0 1) (⟨[![1]], [![1], ![1]]⟩ : Factors 1 Rat) ⟨[![1]], [![1], ![1]]⟩ ∧
    ∃ out, recommend H (-1000) (⟨[![1]], [![1], ![1]]⟩ : Factors 1 Rat) recalc (.one 0) (some [[]]) 1 true (some (.array [])) false none =
        .ok (.one out) ∧
      out ≠ out.map fun p => (Equiv.swap 0 1 p.1, p.2) := by
  refine ⟨⟨fun u => rfl, ?_⟩, ?_⟩
  · intro u
    rcases u with _ | _ | u
    · rfl
    · rfl
    · rw [Equiv.swap_apply_of_ne_of_ne (by omega) (by omega)]
  · obtain ⟨out, e, l, -, r⟩ := C04_filter_partial H (-1000) (⟨[![1]], [![1], ![1]]⟩ : Factors 1 Rat) recalc 0 ![1] rfl []
      (by simp) [] (by simp) (by decide +kernel) 1 le_rfl (by decide +kernel)
    refine ⟨out, e, ?_⟩
    obtain ⟨p, rfl⟩ := List.length_eq_one_iff.mp l
    have h := (r.mem p (by simp)).1.1
    have hp : p.1 = 0 ∨ p.1 = 1 := by
      simp only [List.length_cons, List.length_nil] at h
      omega
    intro hc
    simp only [List.map_cons, List.map_nil, List.cons.injEq, and_true] at hc
    have := congrArg Prod.fst hc
    rcases hp with hp | hp <;> rw [hp] at this <;> simp at this

/-! ## Examples -/

/-- A rotation with rational entries. -/
example : Orthonormal (R := Rat) ![![3/5, 4/5], ![-4/5, 3/5]] := by
  intro a b
  fin_cases a <;> fin_cases b <;> simp [Fin.sum_univ_two] <;> norm_num

/-- Training two users on two items with two factors, both bases: the second run is the rotated first run and both change the
factors. -/
example :
    let Q : Mat 2 Rat := ![![3/5, 4/5], ![-4/5, 3/5]]
    let C : SpRows Rat := [[(0, 3)], [(1, 2), (0, 1)]]
    let init : Factors 2 Rat := ⟨[![1, 0], ![0, 1]], [![1, 1], ![0, 2]]⟩
    let p : ALSParams Rat := ⟨1/10, 2, true, true, 2, 1⟩
    ((alsFit (exactSolver 2 Rat) 0 p 2 C (Spec.rotated Q init)).toOption.any fun m =>
      (alsFit (exactSolver 2 Rat) 0 p 2 C init).toOption.any fun n =>
        decide (m.user = n.user.map (rotate Q) ∧ m.item = n.item.map (rotate Q) ∧ m.user ≠ n.user ∧
          n.user ≠ init.user)) = true := by
  decide +kernel

/-- The same data with the users swapped and the items swapped. -/
example :
    let C : SpRows Rat := [[(0, 3)], [(1, 2), (0, 1)]]
    let C' : SpRows Rat := [[(0, 2), (1, 1)], [(1, 3)]]
    let init : Factors 2 Rat := ⟨[![1, 0], ![0, 1]], [![1, 1], ![0, 2]]⟩
    let init' : Factors 2 Rat := ⟨[![0, 1], ![1, 0]], [![0, 2], ![1, 1]]⟩
    let p : ALSParams Rat := ⟨1/10, 2, true, true, 2, 1⟩
    ((alsFit (exactSolver 2 Rat) 0 p 2 C' init').toOption.any fun m =>
      (alsFit (exactSolver 2 Rat) 0 p 2 C init).toOption.any fun n =>
        decide (m.user = n.user.reverse ∧ m.item = n.item.reverse ∧ m.user ≠ n.user)) = true := by
  decide +kernel

/-- The relation between the two matrices holds and is not trivial. -/
example : RenamedMatrix (R := Rat) (Equiv.swap 0 1) (Equiv.swap 0 1) [[(0, 3)], [(1, 2), (0, 1)]] [[(0, 2), (1, 1)], [(1, 3)]] := by
  intro u
  rcases u with _ | _ | u
  · exact .some (by simp)
  · exact .some (by simp)
  · rw [Equiv.swap_apply_of_ne_of_ne (by omega) (by omega)]
    exact .none

end Implicit
