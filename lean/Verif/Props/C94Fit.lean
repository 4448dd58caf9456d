import Verif.Lemmas.NanSweep
import Verif.Props.C38
import Verif.Props.C94
/-!
# C94 — a whole fit
-/

set_option linter.unusedSectionVars false

namespace Implicit

open Spec (Within sumBound lmfGradient lmfStep lmfReach)

/-! ## How far the factors get -/

theorem reach_mono {u η B step : ℝ} (hu : 0 ≤ u) (hη : 0 ≤ η) (hB : 0 ≤ B) (hs : 0 ≤ step) {j k : Nat} (h : j ≤ k) :
    lmfReach u η B step j ≤ lmfReach u η B step k := by
  unfold lmfReach
  have h1 : ((1 + u) ^ 2) ^ j ≤ ((1 + u) ^ 2) ^ k := pow_le_pow_right₀ (one_le_growth hu 2) h
  have h2 : (j : ℝ) * (step + 2 * η) ≤ k * (step + 2 * η) := mul_le_mul_of_nonneg_right (by exact_mod_cast h) (by positivity)
  exact mul_le_mul h1 (by linarith) (by positivity) (by positivity)

theorem reach_zero {u η B step : ℝ} : lmfReach u η B step 0 = B := by simp [lmfReach]

theorem reach_step {u η B step : ℝ} (hu : 0 ≤ u) (hη : 0 ≤ η) (hs : 0 ≤ step) (k : Nat) :
    ((lmfReach u η B step k + step) * (1 + u) + η) * (1 + u) + η ≤ lmfReach u η B step (k + 1) := by
  have h1 : 1 ≤ ((1 + u) ^ 2) ^ k := one_le_pow₀ (one_le_growth hu 2)
  have e : lmfReach u η B step (k + 1) = (1 + u) ^ 2 * (lmfReach u η B step k + ((1 + u) ^ 2) ^ k * (step + 2 * η)) := by
    unfold lmfReach
    push_cast
    ring
  have h2 : step + 2 * η ≤ ((1 + u) ^ 2) ^ k * (step + 2 * η) := le_mul_of_one_le_left (by positivity) h1
  have h3 : (1 + u) ^ 2 * (lmfReach u η B step k + (step + 2 * η)) ≤ lmfReach u η B step (k + 1) := by
    rw [e]
    exact mul_le_mul_of_nonneg_left (by linarith) (by positivity)
  refine le_trans ?_ h3
  have e2 : (1 + u) ^ 2 * (lmfReach u η B step k + (step + 2 * η)) =
      ((lmfReach u η B step k + step) * (1 + u) + η) * (1 + u) + η + η * (3 * u + 2 * (u * u)) := by
    ring
  have : 0 ≤ η * (3 * u + 2 * (u * u)) := by positivity
  linarith

/-! ## Rows of a matrix -/

variable {f : Nat} {V : Type}

theorem rowEntries_all {err : Err} {Y : List (Vec f V)} {P : Vec f V → Prop} {Q : V → Prop} (hY : ∀ y ∈ Y, P y) :
    ∀ {row : List (Nat × V)} {es : List (Vec f V × V)}, (∀ e ∈ row, Q e.2) → rowEntries err Y row = .ok es →
      es.length = row.length ∧ ∀ e ∈ es, P e.1 ∧ Q e.2
  | [], es, _, h => by
    cases h
    simp
  | (i, c) :: row, es, hQ, h => by
    unfold rowEntries at h
    split at h
    · cases h
    · next y hy =>
      cases hr : rowEntries err Y row with
      | error e =>
        rw [hr] at h
        cases h
      | ok es' =>
        rw [hr] at h
        cases h
        obtain ⟨h1, h2⟩ := rowEntries_all hY (fun e he => hQ e (List.mem_cons_of_mem _ he)) hr
        refine ⟨by simp [h1], fun e he => ?_⟩
        rcases List.mem_cons.mp he with rfl | he
        · exact ⟨hY y (List.mem_of_getElem? hy), hQ (i, c) List.mem_cons_self⟩
        · exact h2 e he

theorem negRows_all {indices : List Nat} {Y : List (Vec f V)} {P : Vec f V → Prop} (hY : ∀ y ∈ Y, P y) {draws : List Nat}
    {neg : List (Vec f V)} (h : lmfNegRows indices Y draws = .ok neg) : neg.length = draws.length ∧ ∀ y ∈ neg, P y := by
  obtain ⟨h1, h2⟩ := mapM_ok_iff h
  refine ⟨h1, fun y hy => ?_⟩
  obtain ⟨k, hk, rfl⟩ := List.getElem_of_mem hy
  obtain ⟨y', h3, h4⟩ := h2 k _ (List.getElem?_eq_getElem (by omega : k < draws.length))
  rw [List.getElem?_eq_getElem hk] at h4
  cases h4
  split at h3
  · cases h3
  · split at h3
    · cases h3
    · next hy =>
      cases h3
      exact hY _ (List.mem_of_getElem? hy)

theorem rowDraws_length (negProp : Int) (seen : Nat) (draw : Nat → Nat) : (lmfRowDraws f negProp seen draw).length ≤ f := by
  unfold lmfRowDraws
  split
  · simp
  · rw [List.length_map, List.length_range]
    unfold lmfNegatives
    omega

/-- An update completes, and its rows have the properties that the update of a row gives. -/
theorem lmfUpdateWith_all {row : LmfRowFn f V} {negProp : Int} {C : SpRows V} {Y : List (Vec f V)} {draws : Nat → Nat → Nat} {side : LmfSide f V}
    (hf : side.factors.length = C.length) (hs : side.sums.length = C.length) (hC : ∀ r ∈ C, ∀ e ∈ r, e.1 < Y.length)
    (hd : ∀ u k, draws u k < (lmfIndices C).length) {P P' S S' Z : Vec f V → Prop} {Q : V → Prop} {n : Nat} (hZ : ∀ y ∈ Y, Z y)
    (hQ : ∀ r ∈ C, ∀ e ∈ r, Q e.2) (hn : ∀ r ∈ C, 2 * r.length + f ≤ n) (hP : ∀ x ∈ side.factors, P x) (hS : ∀ x ∈ side.sums, S x)
    (hrow : ∀ pos neg x s, (∀ e ∈ pos, Z e.1 ∧ Q e.2) → (∀ y ∈ neg, Z y) → 2 * pos.length + neg.length ≤ n → P x → S s →
      P' (row pos neg x s).1 ∧ S' (row pos neg x s).2) :
    ∃ side', lmfUpdateWith row negProp C Y draws side = .ok side' ∧ side'.factors.length = C.length ∧ side'.sums.length = C.length ∧
      (∀ x ∈ side'.factors, P' x) ∧ ∀ x ∈ side'.sums, S' x := by
  have key : ∀ (k : Nat) (hk : k < side.factors.length), ∃ out, lmfRowAtWith row negProp C Y draws side.sums k side.factors[k] = .ok out ∧
      P' out.1 ∧ S' out.2 := fun k hk => by
    have hkC : k < C.length := by omega
    have hks : k < side.sums.length := by omega
    unfold lmfRowAtWith
    rw [List.getElem?_eq_getElem hkC, List.getElem?_eq_getElem hks]
    dsimp only
    obtain ⟨pos, hpos⟩ := rowEntries_total (err := .undefinedBehaviour) (hC _ (List.getElem_mem hkC))
    obtain ⟨neg, hneg⟩ := lmfNegRows_total (lmfIndices C) Y (lmfRowDraws f negProp C[k].length (draws k))
      (by
        intro i hi
        obtain ⟨e, he, rfl⟩ := List.mem_map.mp hi
        obtain ⟨row, hrow, her⟩ := List.mem_flatten.mp he
        exact hC row hrow e her)
      (by
        intro d hdm
        unfold lmfRowDraws at hdm
        split at hdm
        · simp at hdm
        · obtain ⟨j, _, rfl⟩ := List.mem_map.mp hdm
          exact hd k j)
    obtain ⟨p1, p2⟩ := rowEntries_all (P := Z) (Q := Q) hZ (hQ _ (List.getElem_mem hkC)) hpos
    obtain ⟨n1, n2⟩ := negRows_all (P := Z) hZ hneg
    refine ⟨row pos neg side.factors[k] side.sums[k], by rw [hpos]; simp only [bind, Except.bind, hneg]; rfl, ?_⟩
    refine hrow pos neg _ _ p2 n2 ?_ (hP _ (List.getElem_mem hk)) (hS _ (List.getElem_mem hks))
    have h1 := hn _ (List.getElem_mem hkC)
    have h2 := rowDraws_length (f := f) negProp C[k].length (draws k)
    omega
  obtain ⟨out, ho⟩ : ∃ out, side.factors.zipIdx.mapM (fun p => lmfRowAtWith row negProp C Y draws side.sums p.2 p.1) = .ok out := by
    refine mapM_total fun p hp => ?_
    obtain ⟨k, hk, rfl⟩ := List.getElem_of_mem hp
    obtain ⟨o, h, -⟩ := key k (by simpa using hk)
    simp only [List.getElem_zipIdx, Nat.zero_add]
    exact ⟨o, h⟩
  obtain ⟨hol, hoe⟩ := mapM_ok_iff ho
  rw [List.length_zipIdx] at hol
  have hout : ∀ o ∈ out, P' o.1 ∧ S' o.2 := fun o hom => by
    obtain ⟨k, hk, rfl⟩ := List.getElem_of_mem hom
    have hk' : k < side.factors.length := by omega
    obtain ⟨o', h1, h2⟩ := hoe k (side.factors[k], k) (by rw [List.getElem?_zipIdx, List.getElem?_eq_getElem hk']; simp)
    obtain ⟨o'', h3, h4⟩ := key k hk'
    rw [List.getElem?_eq_getElem hk] at h2
    cases h2
    rw [h3] at h1
    cases h1
    exact h4
  have hdrop : side.sums.drop side.factors.length = [] := List.drop_eq_nil_of_le (by omega)
  refine ⟨⟨out.map Prod.fst, out.map Prod.snd ++ side.sums.drop side.factors.length⟩, ?_, by simp; omega, by simp [hdrop]; omega,
    fun x hx => ?_, fun x hx => ?_⟩
  · unfold lmfUpdateWith
    rw [ho]
    rfl
  · obtain ⟨o, h1, rfl⟩ := List.mem_map.mp hx
    exact (hout o h1).1
  · rw [hdrop, List.append_nil] at hx
    obtain ⟨o, h1, rfl⟩ := List.mem_map.mp hx
    exact (hout o h1).2

theorem setColumn_all {A : FloatOps V} {j : Fin f} {X : List (Vec f V)} {P : V → Prop} (h1 : P A.one) (hX : ∀ x ∈ X, ∀ a, P (x a)) :
    ∀ x ∈ A.setColumn j X, ∀ a, P (x a) := by
  intro x hx a
  obtain ⟨x', hx', rfl⟩ := List.mem_map.mp hx
  by_cases h : a = j
  · subst h
    simpa using h1
  · simpa [h] using hX x' hx' a

/-! ## The epochs -/

/-- Factors of size at most `X` and sums of squares of size at most `S`, for `rows` users and `cols` items. -/
structure LmfInRange (X S : ℝ) (rows cols : Nat) (st : LmfState f (Option ℝ)) : Prop where
  userLength : st.user.factors.length = rows
  userSums : st.user.sums.length = rows
  itemLength : st.item.factors.length = cols
  itemSums : st.item.sums.length = cols
  user : ∀ x ∈ st.user.factors, ∀ a, Within X (x a)
  item : ∀ x ∈ st.item.factors, ∀ a, Within X (x a)
  userSum : ∀ x ∈ st.user.sums, ∀ a, SumWithin S (x a)
  itemSum : ∀ x ∈ st.item.sums, ∀ a, SumWithin S (x a)

section
variable {factors : Nat} {u η Ω eps μ lr D F : ℝ} {n T : Nat} (H : LmfSizes u η Ω eps μ lr D F n (factors + 2) T)
  {r s : Rounding ℝ} (hru : r.u ≤ u) (hrη : r.η ≤ η) (hsu : s.u ≤ u) (hsη : s.η ≤ η) (hr : r.Orderly 2) (hs : s.Orderly 2) {Ω' : ℝ} (hΩ' : Ω ≤ Ω')
  {ex : ℝ → ℝ} (h0 : ∀ x, 0 ≤ ex x) (h1 : ∀ x ≤ 0, ex x ≤ 1) {reg : ℝ} (hreg : |reg| ≤ D)
  {B : ℝ} (hB : 1 ≤ B) (hF : lmfReach u η B (lmfStep u η lr (lmfGradient u η D F n)) T ≤ F)
include H hru hrη hsu hsη hr hs hΩ' h0 h1 hreg hB hF

theorem epoch_within {negProp : Int} {cols : Nat} {C : SpRows (Option ℝ)} (hC : ∀ row ∈ C, ∀ e ∈ row, e.1 < cols ∧ Within D e.2)
    (hn : ∀ row ∈ C, 2 * row.length + (factors + 2) ≤ n) (hn' : ∀ col ∈ transposeRows cols C, 2 * col.length + (factors + 2) ≤ n)
    {d : LmfDraws} (hd : ∀ u k, d.user u k < C.flatten.length ∧ d.item u k < C.flatten.length)
    {st : LmfState (factors + 2) (Option ℝ)} {k : Nat} (hk : k < T)
    (hst : LmfInRange (lmfReach u η B (lmfStep u η lr (lmfGradient u η D F n)) k)
      (sumBound u (lmfGradient u η D F n * lmfGradient u η D F n + 2 * η) k) C.length cols st) :
    ∃ st', lmfEpochWith (limitOps r Ω) (mixedLmfRow (limitOps r Ω) (limitOps s Ω') (fun a => a.bind (limit r Ω)) (limitSigmoid r s Ω ex)
        (limitSqrt s Ω') (some eps) (some lr) (some reg)) negProp C (transposeRows cols C) st d = .ok st' ∧
      LmfInRange (lmfReach u η B (lmfStep u η lr (lmfGradient u η D F n)) (k + 1))
        (sumBound u (lmfGradient u η D F n * lmfGradient u η D F n + 2 * η) (k + 1)) C.length cols st' := by
  have hu := H.u_nonneg
  have hη := H.η_nonneg
  have hG := H.gradient_nonneg
  have hst0 : 0 ≤ lmfStep u η lr (lmfGradient u η D F n) := by
    have := H.u_lt
    have : 0 < 1 - u := by linarith
    have := H.lr_nonneg
    unfold lmfStep
    positivity
  have hm : ∀ {j}, j ≤ T → lmfReach u η B (lmfStep u η lr (lmfGradient u η D F n)) j ≤ F := fun hj =>
    (reach_mono hu hη (by linarith) hst0 hj).trans hF
  have hge : ∀ j, 1 ≤ lmfReach u η B (lmfStep u η lr (lmfGradient u η D F n)) j := fun j => by
    have := reach_mono (B := B) hu hη (by linarith) hst0 (Nat.zero_le j)
    rw [reach_zero] at this
    linarith
  have hstep := reach_step (B := B) hu hη hst0 k
  have hsig : ∀ a X, Within X a → Within 1 (limitSigmoid r s Ω ex a) := fun a X ha =>
    sigmoid_within hr hs (H.F_ge.trans H.F_le) h0 h1 ha
  have hlen : (lmfIndices C).length = C.flatten.length := List.length_map _
  have hrow : ∀ (pos : List (Vec (factors + 2) (Option ℝ) × Option ℝ)) (neg : List (Vec (factors + 2) (Option ℝ))) (x sums : Vec (factors + 2) (Option ℝ)),
      (∀ e ∈ pos, (∀ a, Within F (e.1 a)) ∧ Within D e.2) → (∀ y ∈ neg, ∀ a, Within F (y a)) → 2 * pos.length + neg.length ≤ n →
      (∀ a, Within (lmfReach u η B (lmfStep u η lr (lmfGradient u η D F n)) k) (x a)) →
      (∀ a, SumWithin (sumBound u (lmfGradient u η D F n * lmfGradient u η D F n + 2 * η) k) (sums a)) →
      (∀ a, Within (lmfReach u η B (lmfStep u η lr (lmfGradient u η D F n)) (k + 1))
        ((mixedLmfRow (limitOps r Ω) (limitOps s Ω') (fun a => a.bind (limit r Ω)) (limitSigmoid r s Ω ex)
        (limitSqrt s Ω') (some eps) (some lr) (some reg) pos neg x sums).1 a)) ∧
      ∀ a, SumWithin (sumBound u (lmfGradient u η D F n * lmfGradient u η D F n + 2 * η) (k + 1))
        ((mixedLmfRow (limitOps r Ω) (limitOps s Ω') (fun a => a.bind (limit r Ω)) (limitSigmoid r s Ω ex)
        (limitSqrt s Ω') (some eps) (some lr) (some reg) pos neg x sums).2 a) := fun pos neg x sums hp hng hl hx hsm => by
    have := row_within H hru hrη hsu hsη hr hs hΩ' hsig hreg hx hp hng hl hk.le hsm (by linarith [hge k])
      (hstep.trans (hm (Nat.succ_le_of_lt hk)))
    exact ⟨fun a => within_mono (this a).1 hstep, fun a => (this a).2⟩
  obtain ⟨user, u1, u2, u3, u4, u5⟩ := lmfUpdateWith_all (row := mixedLmfRow (limitOps r Ω) (limitOps s Ω') (fun a => a.bind (limit r Ω)) (limitSigmoid r s Ω ex)
      (limitSqrt s Ω') (some eps) (some lr) (some reg))
    (P' := fun x => ∀ a, Within (lmfReach u η B (lmfStep u η lr (lmfGradient u η D F n)) (k + 1)) (x a))
    (S' := fun x => ∀ a, SumWithin (sumBound u (lmfGradient u η D F n * lmfGradient u η D F n + 2 * η) (k + 1)) (x a)) (negProp := negProp) (draws := d.user) hst.userLength hst.userSums
    (fun row hrw e he => by rw [hst.itemLength]; exact (hC row hrw e he).1) (fun u k => by rw [hlen]; exact (hd u k).1)
    (Z := fun y => ∀ a, Within F (y a)) (Q := Within D) (fun y hy a => within_mono (hst.item y hy a) (hm hk.le))
    (fun row hrw e he => (hC row hrw e he).2) hn hst.user hst.userSum hrow
  have v4 := setColumn_all (A := limitOps r Ω) (j := ⟨factors, by omega⟩) (P := Within _) ⟨1, rfl, by simpa using hge (k + 1)⟩ u4
  obtain ⟨item, i1, i2, i3, i4, i5⟩ := lmfUpdateWith_all (row := mixedLmfRow (limitOps r Ω) (limitOps s Ω') (fun a => a.bind (limit r Ω)) (limitSigmoid r s Ω ex)
      (limitSqrt s Ω') (some eps) (some lr) (some reg))
    (P' := fun x => ∀ a, Within (lmfReach u η B (lmfStep u η lr (lmfGradient u η D F n)) (k + 1)) (x a))
    (S' := fun x => ∀ a, SumWithin (sumBound u (lmfGradient u η D F n * lmfGradient u η D F n + 2 * η) (k + 1)) (x a)) (C := transposeRows cols C)
    (Y := (limitOps r Ω).setColumn ⟨factors, by omega⟩ user.factors) (negProp := negProp) (draws := d.item)
    (by rw [transpose_size]; exact hst.itemLength) (by rw [transpose_size]; exact hst.itemSums)
    (fun col hcol e he => by
      obtain ⟨i, hi, rfl⟩ := List.getElem_of_mem hcol
      obtain ⟨row, hrw, -⟩ := transpose_mem (List.getElem?_eq_getElem hi) he
      have : ((limitOps r Ω).setColumn ⟨factors, by omega⟩ user.factors).length = C.length := by simp [FloatOps.setColumn, u2]
      rw [this]
      exact (List.getElem?_eq_some_iff.mp hrw).1)
    (fun u k => by
      rw [lmfIndices_transpose_length cols C fun row hrw e he => (hC row hrw e he).1, hlen]
      exact (hd u k).2)
    (Z := fun y => ∀ a, Within F (y a)) (Q := Within D) (fun y hy a => within_mono (v4 y hy a) (hm (Nat.succ_le_of_lt hk)))
    (fun col hcol e he => by
      obtain ⟨i, hi, rfl⟩ := List.getElem_of_mem hcol
      obtain ⟨row, hrw, hm⟩ := transpose_mem (List.getElem?_eq_getElem hi) he
      exact (hC row (List.mem_of_getElem? hrw) _ hm).2) hn' hst.item hst.itemSum hrow
  have w4 := setColumn_all (A := limitOps r Ω) (j := ⟨factors + 1, by omega⟩) (P := Within _) ⟨1, rfl, by simpa using hge (k + 1)⟩ i4
  rw [transpose_size] at i2 i3
  refine ⟨⟨⟨(limitOps r Ω).setColumn ⟨factors, by omega⟩ user.factors, user.sums⟩,
    ⟨(limitOps r Ω).setColumn ⟨factors + 1, by omega⟩ item.factors, item.sums⟩⟩, ?_,
    ⟨by simp [FloatOps.setColumn, u2], u3, by simp [FloatOps.setColumn, i2], i3, v4, w4, u5, i5⟩⟩
  unfold lmfEpochWith
  simp only [bind, Except.bind, u1, i1, pure, Except.pure]

theorem epochs_within {negProp : Int} {cols : Nat} {C : SpRows (Option ℝ)} (hC : ∀ row ∈ C, ∀ e ∈ row, e.1 < cols ∧ Within D e.2)
    (hn : ∀ row ∈ C, 2 * row.length + (factors + 2) ≤ n) (hn' : ∀ col ∈ transposeRows cols C, 2 * col.length + (factors + 2) ≤ n) :
    ∀ (draws : List LmfDraws), (∀ d ∈ draws, ∀ u k, d.user u k < C.flatten.length ∧ d.item u k < C.flatten.length) →
    ∀ (st : LmfState (factors + 2) (Option ℝ)) (k : Nat), k + draws.length ≤ T →
    LmfInRange (lmfReach u η B (lmfStep u η lr (lmfGradient u η D F n)) k)
      (sumBound u (lmfGradient u η D F n * lmfGradient u η D F n + 2 * η) k) C.length cols st →
    ∃ st', lmfEpochsWith (limitOps r Ω) (mixedLmfRow (limitOps r Ω) (limitOps s Ω') (fun a => a.bind (limit r Ω)) (limitSigmoid r s Ω ex)
        (limitSqrt s Ω') (some eps) (some lr) (some reg)) negProp C (transposeRows cols C) draws st = .ok st' ∧
      LmfInRange (lmfReach u η B (lmfStep u η lr (lmfGradient u η D F n)) (k + draws.length))
        (sumBound u (lmfGradient u η D F n * lmfGradient u η D F n + 2 * η) (k + draws.length)) C.length cols st'
  | [], _, st, k, _, hst => ⟨st, rfl, hst⟩
  | d :: ds, hd, st, k, hk, hst => by
    rw [List.length_cons] at hk
    obtain ⟨st₁, e1, r1⟩ := epoch_within H hru hrη hsu hsη hr hs hΩ' h0 h1 hreg hB hF (negProp := negProp) hC hn hn' (hd d (by simp)) (by omega) hst
    obtain ⟨st₂, e2, r2⟩ := epochs_within hC hn hn' ds (fun d' h' => hd d' (by simp [h'])) st₁ (k + 1) (by omega) r1
    refine ⟨st₂, ?_, ?_⟩
    · rw [lmfEpochsWith, e1]
      exact e2
    · rw [List.length_cons, show k + (ds.length + 1) = k + 1 + ds.length by omega]
      exact r2

/-- **Training of LMF stays in range.**  Let the initial factors be at most `B`, the stored values and the regularisation at most `D`, and the rows
and columns no longer than `n` allows.  If floating point can represent what `LmfSizes` lists — with `F` as bound for the factors — then `fit`
completes without infinity or NaN, and `k` epochs move the factors by `k` times the learning rate at most, up to rounding. -/
theorem C94_lmf {negProp : Int} {cols : Nat} {C : SpRows (Option ℝ)} (hC : ∀ row ∈ C, ∀ e ∈ row, e.1 < cols ∧ Within D e.2)
    (hn : ∀ row ∈ C, 2 * row.length + (factors + 2) ≤ n) (hn' : ∀ col ∈ transposeRows cols C, 2 * col.length + (factors + 2) ≤ n)
    {draws : List LmfDraws} (hT : draws.length ≤ T) (hd : ∀ d ∈ draws, ∀ u k, d.user u k < C.flatten.length ∧ d.item u k < C.flatten.length)
    {m : Factors (factors + 2) (Option ℝ)} (hmu : m.user.length = C.length) (hmi : m.item.length = cols)
    (hu : ∀ x ∈ m.user, ∀ a, Within B (x a)) (hi : ∀ x ∈ m.item, ∀ a, Within B (x a)) :
    ∃ m', limitLmfFit r s Ω Ω' ex eps lr reg negProp cols C draws m = .ok m' ∧ m'.user.length = C.length ∧ m'.item.length = cols ∧
      (∀ x ∈ m'.user, ∀ a, Within (lmfReach u η B (lmfStep u η lr (lmfGradient u η D F n)) draws.length) (x a)) ∧
      ∀ x ∈ m'.item, ∀ a, Within (lmfReach u η B (lmfStep u η lr (lmfGradient u η D F n)) draws.length) (x a) := by
  have hz : SumWithin (sumBound u (lmfGradient u η D F n * lmfGradient u η D F n + 2 * η) 0) (some 0) := ⟨0, rfl, le_rfl, by simp [sumBound]⟩
  obtain ⟨st, e1, r1⟩ := epochs_within H hru hrη hsu hsη hr hs hΩ' h0 h1 hreg hB hF (negProp := negProp) hC hn hn' draws hd
    ⟨⟨m.user, List.replicate C.length fun _ => some 0⟩, ⟨m.item, List.replicate cols fun _ => some 0⟩⟩ 0 (by omega)
    ⟨hmu, by simp, hmi, by simp, by rw [reach_zero]; exact hu, by rw [reach_zero]; exact hi,
      fun x hx a => by rw [List.eq_of_mem_replicate hx]; exact hz, fun x hx a => by rw [List.eq_of_mem_replicate hx]; exact hz⟩
  rw [Nat.zero_add] at r1
  refine ⟨⟨st.user.factors, st.item.factors⟩, ?_, r1.userLength, r1.itemLength, r1.user, r1.item⟩
  have hno : ∀ X : List (Vec (factors + 2) (Option ℝ)), (∀ x ∈ X, ∀ a, Within (lmfReach u η B (lmfStep u η lr (lmfGradient u η D F n)) draws.length) (x a)) →
      anyNaN (limitOps r Ω).isNaN X = false := fun X hX => by
    rw [Bool.eq_false_iff]
    intro h
    obtain ⟨x, hx, h⟩ := List.any_eq_true.mp h
    obtain ⟨j, -, hj⟩ := List.any_eq_true.mp h
    obtain ⟨y, hy, -⟩ := hX x hx j
    rw [hy] at hj
    cases hj
  unfold limitLmfFit lmfRefitWith
  simp only [bind, Except.bind]
  rw [show ((limitOps r Ω).zero) = some 0 from rfl, e1]
  simp only [checkFitErrors, hno _ r1.user, hno _ r1.item]
  rfl

end

end Implicit
