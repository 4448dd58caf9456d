import Verif.Spec.Symmetry
import Verif.Lemmas.ALS
import Verif.Lemmas.Recommend
import Mathlib.Data.List.FinRange
import Mathlib.Data.Fintype.Card
/-! # Renaming -/

set_option linter.unusedSectionVars false

namespace Implicit

open Spec (Renamed RenamedMatrix Agree)

/-! ## Lists -/

theorem Spec.Renamed.lt_iff {α : Type} {σ : Equiv.Perm Nat} {X X' : List α} (h : Renamed σ X X') (u : Nat) :
    σ u < X'.length ↔ u < X.length := by
  rw [← not_iff_not, not_lt, not_lt, ← List.getElem?_eq_none_iff, ← List.getElem?_eq_none_iff, h u]

theorem card_lt_eq {σ : Equiv.Perm Nat} {m n : Nat} (h : ∀ u : Nat, σ u < n ↔ u < m) : n = m := by
  have e : Fin m ≃ Fin n :=
    { toFun := fun u => ⟨σ u, (h u).mpr u.2⟩
      invFun := fun v => ⟨σ.symm v, by rw [← h]; simp⟩
      left_inv := fun u => by simp
      right_inv := fun v => by simp }
  simpa using (Fintype.card_congr e).symm

theorem Spec.Renamed.perm {α : Type} {σ : Equiv.Perm Nat} {X X' : List α} (h : Renamed σ X X') : X'.Perm X := by
  have hn : X'.length = X.length := card_lt_eq h.lt_iff
  let e : Equiv.Perm (Fin X.length) :=
    { toFun := fun u => ⟨σ u, lt_of_lt_of_eq ((h.lt_iff u).mpr u.2) hn⟩
      invFun := fun v => ⟨σ.symm v, by rw [← h.lt_iff]; simp [hn]⟩
      left_inv := fun u => by simp
      right_inv := fun v => by simp }
  let g : Fin X.length → α := fun v => X'[v.1]'(by rw [hn]; exact v.2)
  have h1 : List.ofFn (g ∘ e) = X := by
    apply List.ext_getElem?
    intro i
    by_cases hi : i < X.length
    · rw [List.getElem?_ofFn]
      simp only [hi, dite_true, Function.comp_apply]
      rw [← h i]
      simp only [g, e, Equiv.coe_fn_mk]
      rw [List.getElem?_eq_getElem]
    · rw [List.getElem?_ofFn]
      simp only [hi, dite_false]
      rw [List.getElem?_eq_none (by omega)]
  have h2 : List.ofFn g = X' := by
    apply List.ext_getElem?
    intro i
    by_cases hi : i < X.length
    · rw [List.getElem?_ofFn]
      simp only [hi, dite_true, g]
      rw [List.getElem?_eq_getElem]
    · rw [List.getElem?_ofFn]
      simp only [hi, dite_false]
      rw [List.getElem?_eq_none (by omega)]
  rw [← h1, ← h2]
  exact (Equiv.Perm.ofFn_comp_perm e g).symm

theorem Spec.Renamed.length {α : Type} {σ : Equiv.Perm Nat} {X X' : List α} (h : Renamed σ X X') : X'.length = X.length :=
  h.perm.length_eq

theorem Spec.Renamed.map {α β : Type} {σ : Equiv.Perm Nat} {X X' : List α} (h : Renamed σ X X') (g : α → β) :
    Renamed σ (X.map g) (X'.map g) := by
  intro u
  simp [h u]

theorem mapM_congr_toOption {α β : Type} {g g' : α → Except Err β} {l : List α}
    (h : ∀ x ∈ l, (g x).toOption = (g' x).toOption) : (l.mapM g).toOption = (l.mapM g').toOption := by
  induction l with
  | nil => rfl
  | cons x l ih =>
    rw [List.mapM_cons, List.mapM_cons]
    have hx := h x (by simp)
    have hl := ih (fun y hy => h y (by simp [hy]))
    cases ha : g x <;> cases hb : g' x <;> rw [ha, hb] at hx <;> simp [Except.toOption] at hx
    · rfl
    · subst hx
      cases hc : l.mapM g <;> cases hd : l.mapM g' <;> rw [hc, hd] at hl <;> simp [Except.toOption] at hl
      · rfl
      · subst hl; rfl

theorem mapM_ok_of_exists {α β : Type} {g : α → Except Err β} : ∀ {l : List α}, (∀ x ∈ l, ∃ y, g x = .ok y) →
    ∃ r, l.mapM g = .ok r
  | [], _ => ⟨[], rfl⟩
  | x :: l, h => by
    obtain ⟨y, hy⟩ := h x (by simp)
    obtain ⟨r, hr⟩ := mapM_ok_of_exists (l := l) (fun z hz => h z (by simp [hz]))
    exact ⟨y :: r, by rw [List.mapM_cons, hy, hr]; rfl⟩

/-- A loop over the numbered rows of two renamed lists, with bodies that agree on corresponding rows. -/
theorem mapM_renamed {α β : Type} {σ : Equiv.Perm Nat} {X X' : List α} (hX : Renamed σ X X')
    {g g' : α × Nat → Except Err β} (hg : ∀ x (u : Nat), X[u]? = some x → (g' (x, σ u)).toOption = (g (x, u)).toOption) :
    Agree (Renamed σ) (X.zipIdx.mapM g) (X'.zipIdx.mapM g') := by
  have get : ∀ (u : Nat) x, X[u]? = some x → X.zipIdx[u]? = some (x, u) := by
    intro u x h; rw [List.getElem?_zipIdx, h]; simp
  have get' : ∀ (u : Nat) x, X[u]? = some x → X'.zipIdx[σ u]? = some (x, σ u) := by
    intro u x h; rw [List.getElem?_zipIdx, hX u, h]; simp
  by_cases hall : ∀ (u : Nat) x, X[u]? = some x → ∃ y, g (x, u) = .ok y
  · obtain ⟨r, hr⟩ := mapM_ok_of_exists (l := X.zipIdx) (g := g) (by
      rintro ⟨x, u⟩ hx
      obtain ⟨k, hk⟩ := List.mem_iff_getElem?.mp hx
      rw [List.getElem?_zipIdx] at hk
      cases hxk : X[k]? with
      | none => rw [hxk] at hk; simp at hk
      | some z =>
        rw [hxk] at hk
        simp at hk
        obtain ⟨rfl, rfl⟩ := hk
        exact hall k z hxk)
    obtain ⟨r', hr'⟩ := mapM_ok_of_exists (l := X'.zipIdx) (g := g') (by
      rintro ⟨x, v⟩ hx
      obtain ⟨k, hk⟩ := List.mem_iff_getElem?.mp hx
      rw [List.getElem?_zipIdx] at hk
      cases hxk : X'[k]? with
      | none => rw [hxk] at hk; simp at hk
      | some z =>
        rw [hxk] at hk
        simp at hk
        obtain ⟨rfl, rfl⟩ := hk
        have hu : X[σ.symm k]? = some z := by rw [← hX]; simpa using hxk
        obtain ⟨y, hy⟩ := hall _ z hu
        have := hg z _ hu
        rw [Equiv.apply_symm_apply, hy] at this
        cases hg' : g' (z, k) with
        | error e => rw [hg'] at this; simp [Except.toOption] at this
        | ok y' => exact ⟨y', rfl⟩)
    rw [hr, hr']
    obtain ⟨l1, v1⟩ := mapM_ok_iff hr
    obtain ⟨l2, v2⟩ := mapM_ok_iff hr'
    refine .ok ?_
    intro u
    cases hxu : X[u]? with
    | none =>
      rw [List.getElem?_eq_none_iff] at hxu
      rw [List.getElem?_eq_none (by
        have := hX.lt_iff u
        rw [l2, List.length_zipIdx]; omega), List.getElem?_eq_none (by rw [l1, List.length_zipIdx]; exact hxu)]
    | some x =>
      obtain ⟨y, hy, ey⟩ := v1 _ _ (get u x hxu)
      obtain ⟨y', hy', ey'⟩ := v2 _ _ (get' u x hxu)
      have := hg x u hxu
      rw [hy, hy'] at this
      simp [Except.toOption] at this
      rw [ey, ey', this]
  · push Not at hall
    obtain ⟨u, x, hx, hno⟩ := hall
    have bad : ∃ e, X.zipIdx.mapM g = .error e := by
      cases h : X.zipIdx.mapM g with
      | error e => exact ⟨e, rfl⟩
      | ok r =>
        obtain ⟨y, hy, -⟩ := (mapM_ok_iff h).2 _ _ (get u x hx)
        exact absurd hy (hno y)
    have bad' : ∃ e, X'.zipIdx.mapM g' = .error e := by
      cases h : X'.zipIdx.mapM g' with
      | error e => exact ⟨e, rfl⟩
      | ok r =>
        obtain ⟨y, hy, -⟩ := (mapM_ok_iff h).2 _ _ (get' u x hx)
        have := hg x u hx
        rw [hy] at this
        cases hgu : g (x, u) with
        | error e => rw [hgu] at this; simp [Except.toOption] at this
        | ok y => exact absurd hgu (hno y)
    obtain ⟨e, he⟩ := bad
    obtain ⟨e', he'⟩ := bad'
    rw [he, he']
    exact .error

/-! ## Rows -/

variable {R : Type} [LinearOrder R] [Field R] {f : Nat}

theorem gram_perm {Y Y' : List (Vec f R)} (h : Y'.Perm Y) : gram Y' = gram Y := by
  funext a b
  exact (h.map _).sum_eq

theorem linearEquation_perm (G : Mat f R) (reg : R) {es es' : List (Vec f R × R)} (h : es'.Perm es) :
    linearEquation G reg es' = linearEquation G reg es := by
  apply Prod.ext
  · funext a b
    rw [linearEquation_fst, linearEquation_fst, (h.map _).sum_eq]
  · funext a
    rw [linearEquation_snd, linearEquation_snd, (h.map _).sum_eq]

theorem axpy_comm (t s : R) (y z r : Vec f R) : axpy t y (axpy s z r) = axpy s z (axpy t y r) := by
  funext a; simp only [axpy]; ring

theorem cgResidual_perm (G : Mat f R) {es es' : List (Vec f R × R)} (h : es'.Perm es) (x : Vec f R) :
    cgResidual G es' x = cgResidual G es x := by
  unfold cgResidual
  refine h.foldl_eq' ?_ _
  intro e _ e' _ r
  split <;> split <;> exact axpy_comm _ _ _ _ _

theorem cgApply_perm (G : Mat f R) {es es' : List (Vec f R × R)} (h : es'.Perm es) (p : Vec f R) :
    cgApply G es' p = cgApply G es p := by
  unfold cgApply
  refine h.foldl_eq' ?_ _
  intro e _ e' _ r
  exact axpy_comm _ _ _ _ _

theorem cgSolve_perm (G : Mat f R) (tol : R) (steps : Nat) {es es' : List (Vec f R × R)} (h : es'.Perm es) (x : Vec f R) :
    cgSolve G tol steps es' x = cgSolve G tol steps es x := by
  have : cgApply G es' = cgApply G es := funext (cgApply_perm G h)
  unfold cgSolve
  rw [cgResidual_perm G h, this]

theorem rowEntries_renamed (err err' : Err) {τ : Equiv.Perm Nat} {Y Y' : List (Vec f R)} (hY : Renamed τ Y Y')
    {row row' : List (Nat × R)} (hrow : row'.Perm (row.map fun e => (τ e.1, e.2))) :
    Agree (fun es es' => es'.Perm es) (rowEntries err Y row) (rowEntries err' Y' row') := by
  have hb : (∀ e ∈ row', e.1 < Y'.length) ↔ ∀ e ∈ row, e.1 < Y.length := by
    constructor
    · intro h e he
      exact (hY.lt_iff e.1).mp (h (τ e.1, e.2) (hrow.mem_iff.mpr (List.mem_map_of_mem he)))
    · intro h e he
      obtain ⟨e', he', rfl⟩ := List.mem_map.mp (hrow.mem_iff.mp he)
      exact (hY.lt_iff e'.1).mpr (h e' he')
  by_cases h : ∀ e ∈ row, e.1 < Y.length
  · rw [rowEntries_eq h, rowEntries_eq (hb.mpr h)]
    refine .ok ?_
    refine (hrow.map _).trans ?_
    rw [List.map_map]
    refine List.Perm.of_eq (List.map_congr_left ?_)
    intro e _
    simp [hY e.1]
  · have h' : ¬ ∀ e ∈ row', e.1 < Y'.length := fun c => h (hb.mp c)
    cases e1 : rowEntries err Y row with
    | ok es => exact absurd (rowEntries_ok_iff e1).1 h
    | error _ =>
      cases e2 : rowEntries err' Y' row' with
      | ok es => exact absurd (rowEntries_ok_iff e2).1 h'
      | error _ => exact .error

theorem transposeRows_renamed {σ τ : Equiv.Perm Nat} {C C' : SpRows R} (hC : RenamedMatrix σ τ C C') {cols : Nat}
    (hτ : ∀ i, τ i < cols ↔ i < cols) : RenamedMatrix τ σ (transposeRows cols C) (transposeRows cols C') := by
  have hlt : ∀ u, σ u < C'.length ↔ u < C.length := by
    intro u
    have h := hC u
    rw [← not_iff_not, not_lt, not_lt, ← List.getElem?_eq_none_iff, ← List.getElem?_eq_none_iff]
    cases h1 : C[u]? <;> cases h2 : C'[σ u]? <;> rw [h1, h2] at h <;> simp_all <;> cases h
  have hn := card_lt_eq hlt
  have eqR : ∀ C : SpRows R, C.zipIdx = (List.range C.length).map fun u => (C[u]?.getD [], u) := by
    intro C
    apply List.ext_getElem?
    intro k
    rw [List.getElem?_zipIdx, List.getElem?_map]
    by_cases hk : k < C.length
    · simp [hk]
    · simp [hk]
  intro i
  unfold transposeRows
  rw [List.getElem?_map, List.getElem?_map]
  by_cases hi : i < cols
  · have hi' := (hτ i).mpr hi
    rw [List.getElem?_range hi, List.getElem?_range hi', Option.map_some, Option.map_some]
    refine .some ?_
    have hr : Renamed σ (List.range C.length) ((List.range C'.length).map σ.symm) := by
      intro u
      rw [List.getElem?_map]
      by_cases hu : u < C.length
      · simp [hu, (hlt u).mpr hu]
      · have : ¬ σ u < C'.length := fun c => hu ((hlt u).mp c)
        rw [List.getElem?_eq_none (by simpa using this), List.getElem?_eq_none (by simpa using hu)]
        rfl
    have hp : (List.range C'.length).Perm ((List.range C.length).map σ) := by
      have := hr.perm.map σ
      rw [List.map_map] at this
      simpa using this
    rw [eqR C, eqR C', List.flatMap_map, List.flatMap_map, List.map_flatMap]
    refine (hp.flatMap_right _).trans ?_
    rw [List.flatMap_map]
    refine List.Perm.flatMap_left _ ?_
    intro u hu
    have hu' : u < C.length := by simpa using hu
    have h := hC u
    rw [List.getElem?_eq_getElem hu', List.getElem?_eq_getElem ((hlt u).mpr hu')] at h ⊢
    cases h with
    | some h =>
      simp only [Option.getD_some]
      refine ((h.filter _).map _).trans (List.Perm.of_eq ?_)
      rw [List.filter_map, List.map_map, List.map_map]
      have : ((fun e : Nat × R => e.1 == τ i) ∘ fun e : Nat × R => (τ e.1, e.2)) = fun e : Nat × R => e.1 == i := by
        funext e
        show (τ e.1 == τ i) = (e.1 == i)
        rw [Bool.eq_iff_iff, beq_iff_eq, beq_iff_eq, τ.injective.eq_iff]
      rw [this]
      rfl
  · have hi' := fun c => hi ((hτ i).mp c)
    rw [List.getElem?_eq_none (by simpa using hi), List.getElem?_eq_none (by simpa using hi')]
    exact .none

end Implicit
