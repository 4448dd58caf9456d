import Verif.Lemmas.Explain
import Verif.Props.C17
import Verif.Props.C18

/-!
# C19 — `explain` decomposes the predicted score
-/

set_option linter.unusedSectionVars false

namespace Implicit

variable {R : Type} [LinearOrder R] [Field R] [IsStrictOrderedRing R] {f : Nat}

open Spec (ValidRow)

/-- The confidences the model uses for a stored row. -/
def scaledRow (a : R) (row : List (Nat × R)) : List (Nat × R) := row.map fun e => (e.1, a * e.2)

/-- The dense system of `Spec.IsWeighted` is the one built by the code. -/
theorem isWeighted_iff (Y : List (Vec f R)) (row : List (Nat × R)) (h : ValidRow Y.length row)
    (reg : R) (y w : Vec f R) :
    Spec.IsWeighted Y row reg y w ↔
      mulVec (linearEquation (gram Y) reg (row.map fun e => (Y[e.1]?.getD 0, e.2))).1 w = y := by
  have h0 := residual_eq Y row h reg 0
  have hw := residual_eq Y row h reg w
  rw [mulVec_zero, sub_zero] at h0
  rw [← h0] at hw
  rw [funext_iff]
  refine forall_congr' fun a => ?_
  have h1 := congrFun hw a
  simp only [Pi.sub_apply, Spec.residual, Pi.zero_apply, zero_mul, Finset.sum_const_zero, mul_zero,
    add_zero, sub_zero] at h1
  rw [sub_right_inj] at h1
  rw [h1]

/-- What `explain` computes for a valid row, whether or not the weights are passed in. -/
theorem explain_eq (env : Env f R) (hreg : 0 < env.p.regularization) (st : MFState f R)
    (hst : Coherent env st) (userid : Nat) (userItems : SpRows R) (row : List (Nat × R))
    (hrow : userItems[userid]? = some row) (hv : ValidRow st.item.length row) (itemid : Nat)
    (y : Vec f R) (hy : st.item[itemid]? = some y) :
    ∃ A w, A = (linearEquation (gram st.item) env.p.regularization
        ((scaledRow env.p.alpha row).map fun e => (st.item[e.1]?.getD 0, e.2))).1 ∧
      mulVec A w = y ∧ ∀ (ws : Option (Mat f R)) (N : Nat), (ws = none ∨ ws = some A) →
        (explain env st userid userItems itemid ws N).1 =
          .ok ⟨((Spec.contributions st.item (scaledRow env.p.alpha row) w).map Prod.fst).sum,
            ((drainHeap env.H
              ((Spec.contributions st.item (scaledRow env.p.alpha row) w).foldl
                (keepLargest env.H N) []).length
              ((Spec.contributions st.item (scaledRow env.p.alpha row) w).foldl
                (keepLargest env.H N) [])).map fun c => (c.2, c.1)).reverse, A⟩ := by
  have hv' : ValidRow st.item.length (scaledRow env.p.alpha row) := validRow_scale hv env.p.alpha
  obtain ⟨w, hw, hw'⟩ := env.S.spec _ y (linearEquation_posDef st.item _ hv'.nodup hv'.lt hreg)
  refine ⟨_, w, rfl, hw', ?_⟩
  intro ws N hws
  unfold explain
  rw [applyAlpha_getElem?, hrow]
  simp only [Option.map_some]
  have hA : (match ws with
      | some A => ((.ok A, st) : Except Err (Mat f R) × MFState f R)
      | none => ((rowEntries .indexError (getYtY st).2.item (scaledRow env.p.alpha row)).map
          fun es => (linearEquation (getYtY st).1 env.p.regularization es).1, (getYtY st).2)).1 =
      .ok (linearEquation (gram st.item) env.p.regularization
        ((scaledRow env.p.alpha row).map fun e => (st.item[e.1]?.getD 0, e.2))).1 := by
    rcases hws with rfl | rfl
    · simp only
      rw [getYtY_fst hst, (getYtY_same st).2, rowEntries_eq hv'.lt]
      rfl
    · rfl
  simp only [hy]
  have hA' : (match ws with
      | some A => ((.ok A, st) : Except Err (Mat f R) × MFState f R)
      | none =>
        match getYtY st with
        | (G, st) => ((rowEntries .indexError st.item (scaledRow env.p.alpha row)).map
          fun es => (linearEquation G env.p.regularization es).1, st)).1 =
      .ok (linearEquation (gram st.item) env.p.regularization
        ((scaledRow env.p.alpha row).map fun e => (st.item[e.1]?.getD 0, e.2))).1 := by
    rw [← hA]
  show (do
    let A ← (match ws with
      | some A => ((.ok A, st) : Except Err (Mat f R) × MFState f R)
      | none =>
        match getYtY st with
        | (G, st) => ((rowEntries .indexError st.item (scaledRow env.p.alpha row)).map
          fun es => (linearEquation G env.p.regularization es).1, st)).1
    _) = _
  rw [hA']
  simp only [bind, Except.bind]
  rw [hw]
  simp only
  rw [show explainScores w st.item (List.map (fun e => (e.1, env.p.alpha * e.2)) row) =
    .ok (Spec.contributions st.item (scaledRow env.p.alpha row) w) from
      explainScores_eq w st.item (scaledRow env.p.alpha row) hv'.lt]
  rfl

/-- **C19**.  `explain` returns; its total is the score of the item for the recalculated user factor
and the sum of the contributions of the user's items with confidence `≥ 0` (zero confidences
contribute nothing); the listed contributions are the `N` largest of them in decreasing order. -/
theorem C19_explain (env : Env f R) (hreg : 0 < env.p.regularization) (st : MFState f R)
    (hst : Coherent env st) (userid : Nat) (userItems : SpRows R) (row : List (Nat × R))
    (hrow : userItems[userid]? = some row) (hv : ValidRow st.item.length row) (itemid : Nat)
    (y : Vec f R) (hy : st.item[itemid]? = some y) (N : Nat) :
    ∃ ex w x, (explain env st userid userItems itemid none N).1 = .ok ex ∧
      Spec.IsWeighted st.item (scaledRow env.p.alpha row) env.p.regularization y w ∧
      Spec.IsTopK N (Spec.contributions st.item (scaledRow env.p.alpha row) w)
        (ex.contributions.map fun c => (c.2, c.1)) ∧
      ex.total = ((Spec.contributions st.item (scaledRow env.p.alpha row) w).map Prod.fst).sum ∧
      (recalculateUser env st (.one userid) [row]).1 = .ok [x] ∧ ex.total = dot y x := by
  obtain ⟨A, w, hA, hw, hex⟩ := explain_eq env hreg st hst userid userItems row hrow hv itemid y hy
  have hv' : ValidRow st.item.length (scaledRow env.p.alpha row) := validRow_scale hv env.p.alpha
  obtain ⟨xs, hx, hl, hxs⟩ := C17_recalculate_user env hreg st hst (.one userid) [row] rfl (by
    intro r hr; simp at hr; subst hr; exact hv)
  match xs, hl with
  | [x], _ =>
  obtain ⟨hne, _⟩ := hxs 0 row x rfl rfl
  refine ⟨_, w, x, hex none N (.inl rfl), ?_, ?_, rfl, hx, ?_⟩
  · rw [isWeighted_iff st.item _ hv']
    rw [← hA]; exact hw
  · have := keepLargest_isTopK env.H N (Spec.contributions st.item (scaledRow env.p.alpha row) w)
    simp only [← List.map_reverse, List.map_map]
    convert this using 1
    exact List.map_id _
  · have hs := (normalEquations_iff st.item (scaledRow env.p.alpha row) hv' env.p.regularization x).mp
      hne
    show ((Spec.contributions st.item (scaledRow env.p.alpha row) w).map Prod.fst).sum = dot y x
    rw [contributions_sum w st.item _ (gram st.item) env.p.regularization, ← hs,
      dot_mulVec_symm (linearEquation_symm (gram_symm st.item) env.p.regularization _), ← hA, hw,
      dot_comm]

/-- **C19** (all listed).  With `N` at least the number of items with confidence `≥ 0`, the listed
contributions add up to the total. -/
theorem C19_all_listed (env : Env f R) (hreg : 0 < env.p.regularization) (st : MFState f R)
    (hst : Coherent env st) (userid : Nat) (userItems : SpRows R) (row : List (Nat × R))
    (hrow : userItems[userid]? = some row) (hv : ValidRow st.item.length row) (itemid : Nat)
    (y : Vec f R) (hy : st.item[itemid]? = some y) (N : Nat)
    (hN : (row.filter fun e => 0 ≤ env.p.alpha * e.2).length ≤ N) (ex : Explanation f R)
    (hex : (explain env st userid userItems itemid none N).1 = .ok ex) :
    (ex.contributions.map Prod.snd).sum = ex.total := by
  obtain ⟨ex', w, x, he, _, ⟨hlen, ⟨rest, hp, _⟩, _⟩, htot, _⟩ :=
    C19_explain env hreg st hst userid userItems row hrow hv itemid y hy N
  rw [hex] at he; cases he
  have hc : (Spec.contributions st.item (scaledRow env.p.alpha row) w).length ≤ N := by
    refine le_trans (le_of_eq ?_) hN
    unfold Spec.contributions scaledRow
    rw [List.length_map, List.filter_map, List.length_map]
    rfl
  have hr : rest = [] := by
    have := hp.length_eq
    rw [List.length_append] at this
    exact List.length_eq_zero_iff.mp (by omega)
  subst hr
  rw [List.append_nil] at hp
  rw [htot, (hp.map Prod.fst).sum_eq, List.map_map]
  rfl

/-- **C19** (reusing `user_weights`).  Passing the returned weights back gives the same explanation,
for this item and any other. -/
theorem C19_weights (env : Env f R) (hreg : 0 < env.p.regularization) (st : MFState f R)
    (hst : Coherent env st) (userid : Nat) (userItems : SpRows R) (row : List (Nat × R))
    (hrow : userItems[userid]? = some row) (hv : ValidRow st.item.length row) (itemid itemid' : Nat)
    (hi : itemid < st.item.length) (hi' : itemid' < st.item.length) (N N' : Nat)
    (ex : Explanation f R) (hex : (explain env st userid userItems itemid none N).1 = .ok ex) :
    (explain env st userid userItems itemid' (some ex.weights) N').1 =
      (explain env st userid userItems itemid' none N').1 := by
  obtain ⟨A, w, hA, _, h1⟩ := explain_eq env hreg st hst userid userItems row hrow hv itemid _
    (List.getElem?_eq_getElem hi)
  obtain ⟨A', w', hA', _, h2⟩ := explain_eq env hreg st hst userid userItems row hrow hv itemid' _
    (List.getElem?_eq_getElem hi')
  have hw : ex.weights = A' := by
    rw [h1 none N (.inl rfl)] at hex
    cases hex
    rw [hA']; exact hA
  rw [h2 _ N' (.inr (congrArg some hw)), h2 none N' (.inl rfl)]

/-- **C19** (agreement with `recommend`).  The score that `recommend(recalculate_user=True)` lists for
the item is the total of `explain`; asking for the whole catalogue lists it. -/
theorem C19_recommend (env : Env f R) (hreg : 0 < env.p.regularization) (st : MFState f R)
    (hst : Coherent env st) (userid : Nat) (userItems : SpRows R) (row : List (Nat × R))
    (hrow : userItems[userid]? = some row) (hv : ValidRow st.item.length row) (itemid : Nat)
    (hi : itemid < st.item.length) (N : Nat) (ex : Explanation f R)
    (hex : (explain env st userid userItems itemid none N).1 = .ok ex) (n : Nat) (hn : 1 ≤ n)
    (hn' : n ≤ st.item.length) :
    ∃ out, (runQuery env st (.recommend (.one userid) (some [row]) n false none true none)).1 =
        .ok (.answer (.one out)) ∧
      (∀ s, (itemid, s) ∈ out → s = ex.total) ∧ (n = st.item.length → (itemid, ex.total) ∈ out) := by
  obtain ⟨ex', w, x, he, _, _, _, hx, htot⟩ := C19_explain env hreg st hst userid userItems row hrow
    hv itemid _ (List.getElem?_eq_getElem hi) N
  rw [hex] at he; cases he
  have hp := plain_selection env.H hn (st.item.map (dot x))
  simp only [List.length_map, List.getElem?_map] at hp
  have hne : st.item ≠ [] := by intro h; rw [h] at hi; simp at hi
  have hrec : Implicit.recommend env.H env.neginf ⟨st.user, st.item⟩
      (fun rows => (recalculateUser env st (.one userid) rows).1) (.one userid) (some [row]) n false
      none true none = .ok (.one ((sel env.H n (st.item.map (dot x))).map fun p => (p.2, p.1))) := by
    refine recommend_one env.H env.neginf (s := st.item.map (dot x)) (x := x) rfl ?_ rfl hn hne rfl ?_
    · unfold userFactor; simp only [if_true]; exact hx
    · unfold remapRow padRow
      simp only
      rw [hp.2]
      have : n - min n st.item.length = 0 := by omega
      rw [this]
      simp
  refine ⟨_, by unfold runQuery; simp only [hrec]; rfl, ?_, ?_⟩
  · intro s hs
    have := (hp.1.mem _ hs).2
    simp only [List.getElem?_eq_getElem hi, Option.map_some, Option.some.injEq] at this
    rw [htot, ← this, dot_comm]
  · intro hnn
    have hlen : ((sel env.H n (st.item.map (dot x))).map fun p => (p.2, p.1)).length =
        st.item.length := by
      rw [List.length_map, hp.2]; omega
    -- every item is listed
    have hall : ∀ i, i < st.item.length →
        i ∈ ((sel env.H n (st.item.map (dot x))).map fun p => (p.2, p.1)).map Prod.fst := by
      intro i hi'
      have hsub : ((sel env.H n (st.item.map (dot x))).map fun p => (p.2, p.1)).map Prod.fst ⊆
          List.range st.item.length := by
        intro j hj
        obtain ⟨p, hp', rfl⟩ := List.mem_map.mp hj
        exact List.mem_range.mpr (hp.1.mem p hp').1
      have hperm := (List.subperm_of_subset hp.1.distinct hsub).perm_of_length_le (by
        have h2 := hp.2
        simp only [List.length_map, List.length_range]
        omega)
      exact hperm.mem_iff.mpr (List.mem_range.mpr hi')
    obtain ⟨p, hp', e⟩ := List.mem_map.mp (hall itemid hi)
    have := (hp.1.mem p hp').2
    rw [e] at this
    simp only [List.getElem?_eq_getElem hi, Option.map_some, Option.some.injEq] at this
    have : p = (itemid, ex.total) := by
      rw [htot, dot_comm, this, ← e]
    rw [← this]; exact hp'

/-- A user with a positive, a negative and a zero confidence: three items, the best contribution. -/
example :
    ((explain exampleEnv (freshState ⟨[![5]], [![1], ![2], ![-1]]⟩) 0 [[(0, 2), (1, -3), (2, 0)]] 1
      none 1).1.map fun ex => (ex.total, ex.contributions)).toOption = some (4 / 15, [(0, 4 / 15)]) := by
  decide +kernel

end Implicit
