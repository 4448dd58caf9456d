import Verif.Props.C64
import Verif.Props.C67
import Verif.Props.C11
import Verif.Props.C25
import Verif.Props.C03
/-!
# C68 — users with the same history are treated alike
-/

set_option linter.unusedSectionVars false

namespace Implicit

open Spec (SameHistory ValidRow)

variable {R : Type} [LinearOrder R] [Field R] {f : Nat}

theorem _root_.Implicit.Spec.SameHistory.alpha {C : SpRows R} {u v : Nat} (h : SameHistory C u v) (alpha : R) :
    SameHistory (applyAlpha alpha C) u v := by
  obtain ⟨row, row', h1, h2, hp⟩ := h
  unfold applyAlpha scaleRows
  split
  · exact ⟨row.map _, row'.map _, by rw [List.getElem?_map, h1]; rfl, by rw [List.getElem?_map, h2]; rfl, hp.map _⟩
  · exact ⟨row, row', h1, h2, hp⟩

theorem perm_as_renamed {row row' : List (Nat × R)} (h : row'.Perm row) :
    row'.Perm (row.map fun e => ((Equiv.refl Nat) e.1, e.2)) := by
  simpa using h

theorem mapM_range_get {β : Type} {g : Nat → Except Err β} {n : Nat} {r : List β} (h : (List.range n).mapM g = .ok r)
    {u : Nat} {x : β} (hx : r[u]? = some x) : g u = .ok x := by
  obtain ⟨h1, h2⟩ := mapM_ok_iff h
  have hu : u < n := by
    have := (List.getElem?_eq_some_iff.mp hx).1
    simpa [h1] using this
  obtain ⟨y, hy, hr⟩ := h2 u u (by simp [hu])
  rw [hx] at hr
  cases hr
  exact hy

/-- A sweep of the direct solvers gives equal factors to rows with equal entries. -/
theorem direct_same (S : Solver f R) (tol : R) (p : ALSParams R) (hcg : p.useCg = false) {C : SpRows R} {X Y X' : List (Vec f R)}
    {reg : R} (h : alsSolver S tol p C X Y reg = .ok X') {u v : Nat} (hs : SameHistory C u v) {x y : Vec f R}
    (hx : X'[u]? = some x) (hy : X'[v]? = some y) : x = y := by
  obtain ⟨row, row', h1, h2, hp⟩ := hs
  unfold alsSolver at h
  rw [hcg] at h
  simp only [Bool.false_eq_true, if_false] at h
  split at h
  · unfold leastSquares leastSquaresNative at h
    have e1 := mapM_range_get h hx
    have e2 := mapM_range_get h hy
    simp only [h1, h2] at e1 e2
    have := leastSquaresRow_renamed S (τ := Equiv.refl _) (Y := Y) (Y' := Y) (fun _ => rfl) (gram Y) reg (perm_as_renamed hp)
    rw [e1, e2] at this
    exact (Option.some.inj this).symm
  · unfold leastSquaresPy at h
    have e1 := mapM_range_get h hx
    have e2 := mapM_range_get h hy
    simp only [h1, h2] at e1 e2
    have := leastSquaresPyRow_renamed S (τ := Equiv.refl _) (Y := Y) (Y' := Y) (fun _ => rfl) (gram Y) reg (perm_as_renamed hp)
    rw [e1, e2] at this
    exact (Option.some.inj this).symm

/-- **C68** (training with the direct solvers).  After every iteration, users with the same history have the same factors and
items with the same users have the same factors, whatever the initial factors were. -/
theorem C68_direct (S : Solver f R) (tol : R) (p : ALSParams R) (hcg : p.useCg = false) (C D : SpRows R) (reg : R) (n : Nat)
    (m : Factors f R) (trace : List (Factors f R)) (h : alsTrace (alsSolver S tol p) C D reg n m = .ok trace) :
    ∀ m' ∈ trace,
      (∀ u v x y, SameHistory C u v → m'.user[u]? = some x → m'.user[v]? = some y → x = y) ∧
      ∀ i j x y, SameHistory D i j → m'.item[i]? = some x → m'.item[j]? = some y → x = y := by
  induction n generalizing m trace with
  | zero =>
    cases h
    simp
  | succ n ih =>
    unfold alsTrace alsIteration at h
    simp only [bind, Except.bind, pure, Except.pure] at h
    cases hX : alsSolver S tol p C m.user m.item reg with
    | error e => rw [hX] at h; cases h
    | ok X =>
      rw [hX] at h
      cases hY : alsSolver S tol p D m.item X reg with
      | error e => simp only [hY] at h; cases h
      | ok Y =>
        simp only [hY] at h
        cases ht : alsTrace (alsSolver S tol p) C D reg n ⟨X, Y⟩ with
        | error e => rw [ht] at h; cases h
        | ok t =>
          rw [ht] at h
          cases h
          intro m' hm'
          rcases List.mem_cons.mp hm' with rfl | hm'
          · exact ⟨fun u v x y hs hx hy => direct_same S tol p hcg hX hs hx hy,
              fun i j x y hs hx hy => direct_same S tol p hcg hY hs hx hy⟩
          · exact ih ⟨X, Y⟩ t ht m' hm'

/-- **C68** (fit with the direct solvers), from the call of `fit`. -/
theorem C68_fit (S : Solver f R) (tol : R) (p : ALSParams R) (hcg : p.useCg = false) (hit : 1 ≤ p.iterations) (cols : Nat)
    (C : SpRows R) (init m : Factors f R) (h : alsFit S tol p cols C init = .ok m) {u v : Nat} (hs : SameHistory C u v)
    {x y : Vec f R} (hx : m.user[u]? = some x) (hy : m.user[v]? = some y) : x = y := by
  unfold alsFit at h
  simp only [bind, Except.bind, pure, Except.pure] at h
  cases ht : alsTrace (alsSolver S tol p) (applyAlpha p.alpha C) (transposeRows cols (applyAlpha p.alpha C)) p.regularization
      p.iterations init with
  | error e => rw [ht] at h; cases h
  | ok t =>
    rw [ht] at h
    cases h
    have hne : t ≠ [] := by
      rintro rfl
      cases hn : p.iterations with
      | zero => omega
      | succ n =>
        rw [hn] at ht
        unfold alsTrace at ht
        simp only [bind, Except.bind, pure, Except.pure] at ht
        split at ht
        · cases ht
        · split at ht <;> cases ht
    obtain ⟨l, hl⟩ : ∃ l, t.getLast? = some l := ⟨_, List.getLast?_eq_some_getLast hne⟩
    rw [hl] at hx hy
    exact (C68_direct S tol p hcg _ _ _ _ init t ht l (List.mem_of_getLast? hl)).1 u v x y (hs.alpha p.alpha) hx hy

/-- **C68** (recalculation).  `recalculate_user` gives equal factors to users with the same history: on the CPU (direct solver)
and on the GPU (conjugate gradient from zero). -/
theorem C68_recalculate (env : Env f R) (st : MFState f R) (ids : Ids) (rows : SpRows R) (tol : R) (p : GpuALSParams R)
    (G : Mat f R) (Y : List (Vec f R)) (users cols : Nat) {u v : Nat} (hs : SameHistory rows u v) :
    (∀ r x y, (recalculateUser env st ids rows).1 = .ok r → r[u]? = some x → r[v]? = some y → x = y) ∧
    ∀ r x y, gpuRecalculateUser tol p G Y users cols rows = .ok r → r[u]? = some x → r[v]? = some y → x = y := by
  obtain ⟨row, row', h1, h2, hp⟩ := hs.alpha env.p.alpha
  obtain ⟨grow, grow', g1, g2, gp⟩ := hs.alpha p.alpha
  constructor
  · intro r x y h hx hy
    unfold recalculateUser at h
    split at h
    · cases h
    · unfold leastSquaresNative at h
      have e1 := mapM_range_get h hx
      have e2 := mapM_range_get h hy
      simp only [h1, h2] at e1 e2
      have := leastSquaresRow_renamed env.S (τ := Equiv.refl _) (Y := (getYtY st).2.item) (Y' := (getYtY st).2.item)
        (fun _ => rfl) (getYtY st).1 env.p.regularization (perm_as_renamed hp)
      rw [e1, e2] at this
      exact (Option.some.inj this).symm
  · intro r x y h hx hy
    unfold gpuRecalculateUser gpuLeastSquares at h
    split at h
    · cases h
    · split at h
      · cases h
      · obtain ⟨hl, hget⟩ := mapM_ok_iff h
        have key : ∀ {w : Nat} {z : Vec f R} {rw' : List (Nat × R)}, r[w]? = some z → (applyAlpha p.alpha rows)[w]? = some rw' →
            cgRow G tol f Y rw' (fun _ => 0) = .ok z := by
          intro w z rw' hz hrow
          have hw : w < users := by
            have := (List.getElem?_eq_some_iff.mp hz).1
            simpa [hl] using this
          obtain ⟨z', e, hz'⟩ := hget w (fun _ => 0, w) (by simp [List.getElem?_zipIdx, List.getElem?_replicate, hw])
          rw [hz] at hz'
          cases hz'
          simpa only [hrow] using e
        have := cgRow_renamed (τ := Equiv.refl _) (Y := Y) (Y' := Y) (fun _ => rfl) G tol f (perm_as_renamed gp) (fun _ => 0)
        rw [key hx g1, key hy g2] at this
        exact (Option.some.inj this).symm

variable [IsStrictOrderedRing R]

/-- Two points with small gradients are close. -/
theorem close_of_residual (Y : List (Vec f R)) (row : List (Nat × R)) {reg : R} (hreg : 0 < reg) (x z : Vec f R) :
    reg ^ 2 * ∑ j, (z j - x j) ^ 2 ≤
      2 * (∑ j, Spec.residual Y row reg x j ^ 2 + ∑ j, Spec.residual Y row reg z j ^ 2) := by
  have h1 := rowLoss_expand Y row reg x z
  have h2 := rowLoss_expand Y row reg z x
  have e1 : ∑ i : Fin Y.length, Spec.confidence row i * (∑ j, (x j - z j) * Y[i] j) ^ 2 =
      ∑ i : Fin Y.length, Spec.confidence row i * (∑ j, (z j - x j) * Y[i] j) ^ 2 := by
    refine Finset.sum_congr rfl fun i _ => ?_
    have : ∑ j, (x j - z j) * Y[i] j = -∑ j, (z j - x j) * Y[i] j := by
      rw [← Finset.sum_neg_distrib]
      exact Finset.sum_congr rfl fun j _ => by ring
    rw [this]; ring
  have e2 : ∑ j, (x j - z j) ^ 2 = ∑ j, (z j - x j) ^ 2 := Finset.sum_congr rfl fun j _ => by ring
  have e3 : ∑ a, (x a - z a) * Spec.residual Y row reg z a = -∑ a, (z a - x a) * Spec.residual Y row reg z a := by
    rw [← Finset.sum_neg_distrib]
    exact Finset.sum_congr rfl fun j _ => by ring
  rw [e1, e2, e3] at h2
  have hq : 0 ≤ ∑ i : Fin Y.length, Spec.confidence row i * (∑ j, (z j - x j) * Y[i] j) ^ 2 :=
    Finset.sum_nonneg fun i _ => mul_nonneg (confidence_nonneg _ _) (sq_nonneg _)
  have hd : reg * ∑ j, (z j - x j) ^ 2 ≤
      (∑ a, (z a - x a) * Spec.residual Y row reg x a) - ∑ a, (z a - x a) * Spec.residual Y row reg z a := by
    linarith
  have hp : 2 * reg * ((∑ a, (z a - x a) * Spec.residual Y row reg x a) - ∑ a, (z a - x a) * Spec.residual Y row reg z a) ≤
      reg ^ 2 * ∑ j, (z j - x j) ^ 2 +
        2 * (∑ j, Spec.residual Y row reg x j ^ 2 + ∑ j, Spec.residual Y row reg z j ^ 2) := by
    simp only [Finset.mul_sum, ← Finset.sum_sub_distrib, ← Finset.sum_add_distrib]
    refine Finset.sum_le_sum fun j _ => ?_
    nlinarith [sq_nonneg (reg * (z j - x j) - (Spec.residual Y row reg x j - Spec.residual Y row reg z j)),
      sq_nonneg (Spec.residual Y row reg x j + Spec.residual Y row reg z j)]
  have := mul_le_mul_of_nonneg_left hd (show (0 : R) ≤ 2 * reg by linarith)
  nlinarith

theorem residual_perm (Y : List (Vec f R)) {row row' : List (Nat × R)} (h : ValidRow Y.length row) (hp : row'.Perm row) (reg : R)
    (x : Vec f R) : Spec.residual Y row' reg x = Spec.residual Y row reg x := by
  have h' : ValidRow Y.length row' := ⟨(hp.map _).nodup_iff.mpr h.nodup, fun e he => h.lt e (hp.mem_iff.mp he)⟩
  rw [residual_eq Y row h, residual_eq Y row' h', linearEquation_perm _ _ (hp.map _)]

/-- **C68** (training with any solver).  With the conjugate gradient solvers users with the same history can have different factors
after any number of iterations (`C68_cg_violated`), but they come as close as one likes: for every `delta` not below the resolution
of the tolerance there is an iteration from which the squared distance between their factors stays below `delta`; the same for
items with the same users. -/
theorem C68_eventually [Archimedean R] (S : Solver f R) (tol : R) (p : ALSParams R) {reg : R} (hreg : 0 < reg) (C : SpRows R)
    (m : Factors f R) (hC : C.length = m.user.length) (hv : ∀ row ∈ C, ValidRow m.item.length row) {delta : R} (hd : 0 < delta)
    (hcg : p.useCg = true → 1 ≤ p.cgSteps ∧ 4 * tol ≤ reg ^ 2 * delta) :
    ∃ N, ∀ n, ∃ trace, alsTrace (alsSolver S tol p) C (transposeRows m.item.length C) reg n m = .ok trace ∧ trace.length = n ∧
      ∀ k, N ≤ k → ∀ a, k < n → (m :: trace)[k]? = some a →
        (∀ u v x y, SameHistory C u v → a.user[u]? = some x → a.user[v]? = some y → ∑ j, (y j - x j) ^ 2 < delta) ∧
        ∀ i j x y, SameHistory (transposeRows m.item.length C) i j → a.item[i]? = some x → a.item[j]? = some y →
          ∑ l, (y l - x l) ^ 2 < delta := by
  have hr2 : 0 < reg ^ 2 := by positivity
  obtain ⟨N, hN⟩ := C64_eventually S tol p hreg C m hC hv (eps := reg ^ 2 * delta / 4) (by positivity)
    (fun h => ⟨(hcg h).1, by linarith [(hcg h).2]⟩)
  refine ⟨N, fun n => ?_⟩
  obtain ⟨trace, e, hl, hk⟩ := hN n
  obtain ⟨trace', e', hl', -, hsh⟩ := C13_training S tol p hreg C n m hC hv
  rw [e] at e'
  cases e'
  refine ⟨trace, e, hl, ?_⟩
  intro k hNk a hkn ha
  obtain ⟨b, hb⟩ : ∃ b, (m :: trace)[k + 1]? = some b := ⟨_, List.getElem?_eq_getElem (by simp; omega)⟩
  obtain ⟨hu, hi⟩ := hk k hNk a b ha hb
  have hal : a.user.length = m.user.length ∧ a.item.length = m.item.length := by
    rcases List.mem_cons.mp (List.mem_of_getElem? ha) with rfl | h
    · exact ⟨rfl, rfl⟩
    · exact hsh a h
  have hbl : b.user.length = m.user.length := by
    rcases List.mem_cons.mp (List.mem_of_getElem? hb) with rfl | h
    · rfl
    · exact (hsh b h).1
  have close : ∀ (Y : List (Vec f R)) (row row' : List (Nat × R)), ValidRow Y.length row → row'.Perm row → ∀ x y : Vec f R,
      ∑ j, Spec.residual Y row reg x j ^ 2 < reg ^ 2 * delta / 4 → ∑ j, Spec.residual Y row' reg y j ^ 2 < reg ^ 2 * delta / 4 →
      ∑ j, (y j - x j) ^ 2 < delta := by
    intro Y row row' hrow hp x y hx hy
    rw [residual_perm Y hrow hp] at hy
    have h1 := close_of_residual Y row hreg x y
    have h2 : reg ^ 2 * ∑ j, (y j - x j) ^ 2 < reg ^ 2 * delta := by linarith
    exact lt_of_mul_lt_mul_left h2 hr2.le
  constructor
  · rintro u v x y ⟨row, row', h1, h2, hp⟩ hx hy
    obtain ⟨hul, hux⟩ := List.getElem?_eq_some_iff.mp hx
    obtain ⟨hvl, hvy⟩ := List.getElem?_eq_some_iff.mp hy
    have gu := hu ⟨u, hul⟩
    have gv := hu ⟨v, hvl⟩
    rw [userGradient_eq] at gu gv
    simp only [h1, h2, Option.getD_some, Fin.getElem_fin, hux, hvy] at gu gv
    refine close a.item row row' ?_ hp x y gu gv
    rw [hal.2]; exact hv row (List.mem_of_getElem? h1)
  · rintro i j x y ⟨row, row', h1, h2, hp⟩ hx hy
    obtain ⟨hil, hix⟩ := List.getElem?_eq_some_iff.mp hx
    obtain ⟨hjl, hjy⟩ := List.getElem?_eq_some_iff.mp hy
    have hva : ∀ row ∈ C, ValidRow a.item.length row := by rw [hal.2]; exact hv
    have gi := hi ⟨i, hil⟩
    have gj := hi ⟨j, hjl⟩
    rw [itemGradient_eq C b.user a.item reg m.item.length hal.2.symm hva] at gi gj
    simp only [h1, h2, Option.getD_some, Fin.getElem_fin, hix, hjy] at gi gj
    refine close b.user row row' ?_ hp x y gi gj
    have := transpose_valid hv row (List.mem_of_getElem? h1)
    rwa [hbl, ← hC]

/-! ## Queries -/

omit [IsStrictOrderedRing R] in
theorem assignAt_perm {v : R} {l l' : List Nat} (h : l'.Perm l) (row : List R) : assignAt v l' row = assignAt v l row := by
  induction h generalizing row with
  | nil => rfl
  | cons i _ ih =>
    unfold assignAt
    split
    · exact ih _
    · rfl
  | swap i j l =>
    simp only [assignAt, List.length_set]
    by_cases hij : i = j
    · rw [hij]
    · split <;> split <;> first | rfl | rw [List.set_comm _ _ (Ne.symm hij)] | rw [List.set_comm _ _ hij]
  | trans _ _ ih1 ih2 => rw [ih1, ih2]

omit [IsStrictOrderedRing R] in
/-- The liked items can be listed in any order. -/
theorem topk_liked_perm (H : HeapImpl (R × Nat) pairLt) (neginf : R) (items query : List (Vec f R)) (k : Nat)
    (norms : Option (List R)) (fq fq' : Option (List (List Nat)))
    (h : Option.Rel (List.Forall₂ fun a b : List Nat => b.Perm a) fq fq') (fi : Option (List Nat)) :
    topk H neginf items query k norms fq' fi = topk H neginf items query k norms fq fi := by
  have hm : ∀ idx q, maskedRow neginf items norms fq' fi idx q = maskedRow neginf items norms fq fi idx q := by
    intro idx q
    cases h with
    | none => rfl
    | some h =>
      rename_i L L'
      have hidx : Option.Rel (fun a b : List Nat => b.Perm a) L[idx]? L'[idx]? := by
        induction h generalizing idx with
        | nil => exact .none
        | cons hab _ ih =>
          cases idx with
          | zero => exact .some hab
          | succ i => exact ih i
      unfold maskedRow
      revert hidx
      simp only
      generalize L[idx]? = a
      generalize L'[idx]? = b
      intro hab
      cases hab with
      | none => rfl
      | some hab => simp only [assignAt_perm hab]
  unfold topk topkFlat topkBatches topkBatch
  simp only [hm]

omit [IsStrictOrderedRing R] in
/-- A single query: the same history in another order, and the same factor, give the same answer. -/
theorem recommend_same (H : HeapImpl (R × Nat) pairLt) (neginf : R) (m : Factors f R)
    (recalc : SpRows R → Except Err (List (Vec f R))) (u v : Nat) (row row' : List (Nat × R)) (hp : row'.Perm row) (N : Nat)
    (fl : Bool) (fi : Option PyFilter) (recalculate : Bool) (items : Option (List Int))
    (hx : (userFactor m recalc (.one v) (some [row']) recalculate).toOption =
      (userFactor m recalc (.one u) (some [row]) recalculate).toOption) :
    (recommend H neginf m recalc (.one v) (some [row']) N fl fi recalculate items).toOption =
      (recommend H neginf m recalc (.one u) (some [row]) N fl fi recalculate items).toOption := by
  unfold recommend
  have hc : ∀ w r, checkUserItems (R := R) (.one w) (some [r]) (fl || recalculate) = .ok () := by
    intro w r
    unfold checkUserItems
    split <;> rfl
  rw [hc, hc]
  simp only [bind, Except.bind]
  revert hx
  generalize userFactor m recalc (.one v) (some [row']) recalculate = a
  generalize userFactor m recalc (.one u) (some [row]) recalculate = b
  intro hx
  cases a with
  | error e =>
    cases b with
    | error e' => rfl
    | ok y => cases hx
  | ok x =>
    cases b with
    | error e' => cases hx
    | ok y =>
      cases hx
      simp only
      cases restrictItems m N fi items with
      | error e => rfl
      | ok t =>
        simp only
        rw [topk_liked_perm H neginf t.2.1 x t.1 none (likedPositions fl (some [row]) t.2.2) (likedPositions fl (some [row']) t.2.2)]
        · cases topk H neginf t.2.1 x t.1 none (likedPositions fl (some [row]) t.2.2) (fi.map PyFilter.ids) with
          | error e => rfl
          | ok rows =>
            simp only
            cases rows.mapM (remapRow t.2.2) with
            | error e => rfl
            | ok rows =>
              cases rows <;> rfl
        · unfold likedPositions
          split
          · refine .some ?_
            cases t.2.2 with
            | none => exact .cons (hp.map _) .nil
            | some its => exact .cons (((hp.map _).filter _).map _) .nil
          · exact .none

omit [IsStrictOrderedRing R] in
/-- **C68** (recommendations of the factor models).  In one batch, two queries with the same interactions get the same answer when
the factors are recalculated, or when the users have equal factors (as after training with a direct solver, `C68_fit`). -/
theorem C68_recommend (H : HeapImpl (R × Nat) pairLt) (neginf : R) (m : Factors f R)
    (recalc : SpRows R → Except Err (List (Vec f R))) (g : List (Nat × R) → Except Err (Vec f R))
    (hrec : ∀ rows, recalc rows = rows.mapM g) (hg : ∀ row row', row'.Perm row → (g row').toOption = (g row).toOption)
    (us : List Nat) (ui : SpRows R) (N : Nat) (fl : Bool) (fi : Option PyFilter) (recalculate : Bool) (items : Option (List Int))
    (rows : List (List (Nat × R)))
    (h : recommend H neginf m recalc (.many us) (some ui) N fl fi recalculate items = .ok (.many rows))
    {r s u v : Nat} (hr : us[r]? = some u) (hs : us[s]? = some v) (hh : SameHistory ui r s)
    (hx : recalculate = true ∨ m.user[u]? = m.user[v]?) : rows[r]? = rows[s]? := by
  obtain ⟨row, row', h1, h2, hp⟩ := hh
  obtain ⟨_, e, -, hk⟩ := C03_recommend_batch H neginf m recalc g hrec us (some ui) N fl fi recalculate items _ h
  cases e
  obtain ⟨a, ha, ea⟩ := hk r u hr
  obtain ⟨b, hb, eb⟩ := hk s v hs
  have m1 : rowMatrix (some ui) r = some [row] := by simp [rowMatrix, h1]
  have m2 : rowMatrix (some ui) s = some [row'] := by simp [rowMatrix, h2]
  rw [m1] at ea
  rw [m2] at eb
  have := recommend_same H neginf m recalc u v row row' hp N fl fi recalculate items (by
    unfold userFactor
    split
    · simp only [hrec, List.mapM_cons, List.mapM_nil, bind, Except.bind, pure, Except.pure]
      have := hg row row' hp
      cases h1 : g row' <;> cases h2 : g row <;> simp_all [Except.toOption]
    · next hn =>
      have hu := hx.resolve_left hn
      simp only [Ids.toList, gather, hu])
  rw [ea, eb] at this
  cases this
  rw [ha, hb]

omit [IsStrictOrderedRing R] in
/-- The recalculation of the CPU model does not depend on the order of the stored entries, as `C68_recommend` asks. -/
theorem C68_recalc_order (S : Solver f R) (G : Mat f R) (Y : List (Vec f R)) (reg alpha : R) (row row' : List (Nat × R))
    (hp : row'.Perm row) :
    (leastSquaresRow S G Y reg (row'.map fun e => (e.1, alpha * e.2))).toOption =
      (leastSquaresRow S G Y reg (row.map fun e => (e.1, alpha * e.2))).toOption :=
  leastSquaresRow_renamed S (τ := Equiv.refl _) (Y := Y) (Y' := Y) (fun _ => rfl) G reg (perm_as_renamed (hp.map _))

omit [Field R] [IsStrictOrderedRing R] in
theorem ranking_length {k : Nat} {E : Nat → Prop} {sc : Nat → Option R} {a b : List (Nat × R)}
    (ha : Spec.IsRanking k E sc a) (hb : Spec.IsRanking k E sc b) : a.length = b.length := by
  have key : ∀ {a b : List (Nat × R)}, Spec.IsRanking k E sc a → Spec.IsRanking k E sc b → b.length ≤ a.length := by
    intro a b ha hb
    by_contra hlt
    have hk := hb.atMost
    have hall := ha.complete (by omega)
    have hsub : b.map Prod.fst ⊆ a.map Prod.fst := by
      intro i hi
      obtain ⟨p, hp, rfl⟩ := List.mem_map.mp hi
      exact hall _ (hb.mem p hp).1
    have := (hb.distinct.subperm hsub).length_le
    simp only [List.length_map] at this
    omega
  exact le_antisymm (key hb ha) (key ha hb)

/-- **C68** (recommendations of the item-item models).  In one batch, two queries with the same interactions get rows with the same
scores. -/
theorem C68_item_item (H : HeapImpl (R × Nat) pairLt) (lowest lowest32 : R) (sim : SpRows R) (hsim : SquareRows sim)
    (us : List Nat) (rows : SpRows R) (hlen : rows.length = us.length)
    (hrows : ∀ row ∈ rows, ∀ e ∈ row, e.1 < sim.length) (N : Nat) (hN : 1 ≤ N) {r s : Nat} (hh : SameHistory rows r s) :
    ∃ answers, knnRecommend H lowest lowest32 (KnnState.ofSimilarity sim) (.many us) true rows N false none none =
        (.ok (.many answers), KnnState.ofSimilarity sim) ∧
      ∃ a b, answers[r]? = some a ∧ answers[s]? = some b ∧ a.map Prod.snd = b.map Prod.snd := by
  obtain ⟨row, row', h1, h2, hp⟩ := hh
  obtain ⟨answers, e, hl, hk⟩ := C25_batch H lowest lowest32 sim hsim us rows hlen hrows N hN
  have hr := (List.getElem?_eq_some_iff.mp h1).1
  have hs := (List.getElem?_eq_some_iff.mp h2).1
  obtain ⟨a, ha⟩ : ∃ a, answers[r]? = some a := ⟨_, List.getElem?_eq_getElem (by omega)⟩
  obtain ⟨b, hb⟩ : ∃ b, answers[s]? = some b := ⟨_, List.getElem?_eq_getElem (by omega)⟩
  obtain ⟨oa, ra, pa⟩ := hk r row a h1 ha
  obtain ⟨ob, rb, pb⟩ := hk s row' b h2 hb
  refine ⟨answers, e, a, b, ha, hb, ?_⟩
  have hE : Spec.Reachable sim row' = Spec.Reachable sim row := by
    funext j
    unfold Spec.Reachable
    simp only [hp.mem_iff]
  have hsc : (fun j => some (Spec.itemScore sim row' j)) = fun j => some (Spec.itemScore sim row j) := by
    funext j
    unfold Spec.itemScore
    rw [(hp.map _).sum_eq]
  rw [hE, hsc] at rb
  have hlen' := ranking_length ra rb
  have hscores := ranking_scores ra rb hlen'
  refine List.ext_getElem? fun k => ?_
  rw [List.getElem?_map, List.getElem?_map]
  by_cases hk : k < N
  · rw [pa.2 k hk, pb.2 k hk]
    simp only [intRow, List.length_map, List.getElem?_map, hlen']
    have := congrArg (fun l => l[k]?) hscores
    simp only [List.getElem?_map] at this
    split
    · simpa [Option.map_map, Function.comp_def] using this
    · rfl
  · rw [List.getElem?_eq_none (by have := pa.1; omega), List.getElem?_eq_none (by have := pb.1; omega)]

/-- **C68** (conjugate gradient), the code disagrees: with the default solver (3 steps, tolerance 1e-20) two users who did the same
have different factors after `fit`, because each starts from its own random factor.  Four factors, four items. -/
theorem C68_cg_violated :
    let C : SpRows Rat := [[(0, 2), (1, 3), (2, 5)], [(0, 2), (1, 3), (2, 5)]]
    let Y : List (Vec 4 Rat) := [![1, 0, 0, 0], ![0, 2, 0, 1], ![0, 1, 3, 0], ![1, 0, 0, 1]]
    let init : Factors 4 Rat := ⟨[![1, 2, 3, 4], ![4, -1, 2, 0]], Y⟩
    SameHistory C 0 1 ∧
      ((alsFit (exactSolver 4 Rat) (1 / 10 ^ 20) ⟨1 / 100, 1, true, true, 3, 1⟩ 4 C init).toOption.any fun m =>
        decide (m.user[0]? ≠ m.user[1]?)) = true := by
  refine ⟨⟨_, _, rfl, rfl, .refl _⟩, ?_⟩
  decide +kernel

/-- The same data with the direct solver (one factor): equal factors from different starts. -/
example :
    let C : SpRows Rat := [[(0, 2), (1, 3)], [(1, 3), (0, 2)]]
    let init : Factors 1 Rat := ⟨[![1], ![4]], [![1], ![2]]⟩
    SameHistory C 0 1 ∧ init.user[0]? ≠ init.user[1]? ∧
      ((alsFit (scalarSolver Rat) (1 / 10 ^ 20) ⟨1 / 100, 1, true, false, 3, 2⟩ 2 C init).toOption.any fun m =>
        decide (m.user[0]? = m.user[1]? ∧ m.user[0]? ≠ some ![0] ∧ m.user.length = 2)) = true := by
  refine ⟨⟨_, _, rfl, rfl, ?_⟩, by decide +kernel, by decide +kernel⟩
  exact List.Perm.swap _ _ _

/-- The default solver on the data of `C68_cg_violated`: the factors of the two users come within 1/1000 of each other for good. -/
example :
    let C : SpRows Rat := [[(0, 2), (1, 3), (2, 5)], [(0, 2), (1, 3), (2, 5)]]
    let Y : List (Vec 4 Rat) := [![1, 0, 0, 0], ![0, 2, 0, 1], ![0, 1, 3, 0], ![1, 0, 0, 1]]
    let m : Factors 4 Rat := ⟨[![1, 2, 3, 4], ![4, -1, 2, 0]], Y⟩
    ∃ N, ∀ n, ∃ trace, alsTrace (alsSolver (exactSolver 4 Rat) (1 / 10 ^ 20) ⟨1 / 100, 1, true, true, 3, 1⟩) C
        (transposeRows 4 C) (1 / 100) n m = .ok trace ∧ trace.length = n ∧
      ∀ k, N ≤ k → ∀ a, k < n → (m :: trace)[k]? = some a →
        (∀ u v x y, SameHistory C u v → a.user[u]? = some x → a.user[v]? = some y → ∑ j, (y j - x j) ^ 2 < 1 / 1000) ∧
        ∀ i j x y, SameHistory (transposeRows 4 C) i j → a.item[i]? = some x → a.item[j]? = some y →
          ∑ l, (y l - x l) ^ 2 < 1 / 1000 := by
  intro C Y m
  refine C68_eventually (exactSolver 4 Rat) (1 / 10 ^ 20) ⟨1 / 100, 1, true, true, 3, 1⟩ (by norm_num) C m rfl ?_ (by norm_num)
    (fun _ => ⟨by decide, by norm_num⟩)
  intro row hrow
  have : row = [(0, 2), (1, 3), (2, 5)] := by simpa [C] using hrow
  subst this
  exact ⟨by decide, by simp [m, Y]⟩

/-- Two queries of a batch of an item-item model with the same interactions stored in another order. -/
example :
    let sim : SpRows Rat := [[(0, 4), (1, 2)], [(0, 2), (1, 3), (2, 1)], [(1, 1), (2, 5)]]
    let rows : SpRows Rat := [[(0, 1), (1, 2)], [(2, 1)], [(1, 2), (0, 1)]]
    SameHistory rows 0 2 ∧
      ((knnRecommend insertionHeap (-1000) (-1000) (KnnState.ofSimilarity sim) (.many [7, 8, 9]) true rows 2 false none none).1.toOption.any
        fun a => match a with
          | .many [r0, r1, r2] => decide (r0.map Prod.snd = r2.map Prod.snd ∧ r0.map Prod.snd ≠ r1.map Prod.snd)
          | _ => false) = true := by
  refine ⟨⟨_, _, rfl, rfl, List.Perm.swap _ _ _⟩, by decide +kernel⟩

/-- Two queries of a batch of a factor model with recalculated factors. -/
example :
    let m : Factors 1 Rat := ⟨[![1], ![2]], [![1], ![2], ![-1]]⟩
    let recalc : SpRows Rat → Except Err (List (Vec 1 Rat)) :=
      fun rows => rows.mapM (leastSquaresRow (scalarSolver Rat) (gram m.item) m.item (1 / 100))
    let rows : SpRows Rat := [[(0, 1), (1, 2)], [(1, 2), (0, 1)], [(2, 3)]]
    SameHistory rows 0 1 ∧
      ((recommend insertionHeap (-1000) m recalc (.many [0, 1, 0]) (some rows) 1 true none true none).toOption.any
        fun a => match a with
          | .many [r0, r1, r2] => decide (r0 = r1 ∧ r0 ≠ r2)
          | _ => false) = true := by
  refine ⟨⟨_, _, rfl, rfl, List.Perm.swap _ _ _⟩, by decide +kernel⟩

end Implicit
