import Verif.Props.C74
import Verif.Props.C55
import Verif.Props.C56

/-!
# C74 on the GPU
-/

set_option linter.unusedSectionVars false

namespace Implicit

variable {R : Type} [LinearOrder R] [Field R] {f : Nat}

namespace Spec

/-- The calls a caller may leave out of a history: queries, and other calls that raise, except `fit`. -/
def GpuForgettable {α : Type} : GpuOp f R → Except Err α → Prop
  | .query _, _ => True
  | .fit _ _ _ _, _ => False
  | _, o => ∃ e, o = .error e

end Spec

/-- Same factors, and coherent caches in both. -/
structure Twin (env : GpuModelEnv f R) (a b : GpuState f R) : Prop where
  left : GpuCoherent env a
  right : GpuCoherent env b
  kindLeft : KindOk env a
  kindRight : KindOk env b
  same : SameGpu a b

theorem gpuFitEpochs_twin (env : GpuModelEnv f R) (train : Nat → Factors f R → Except Err (Factors f R))
    (callback : Nat → List (GpuAsk R)) (torn : Factors f R)
    (hcb : ∀ i, ∀ q ∈ callback i, q.plain = true) : ∀ (n i : Nat) (a b : GpuState f R),
    NoGpuCache a → NoGpuCache b → SameGpu a b →
    (gpuFitEpochs env train callback torn i n a).1 = (gpuFitEpochs env train callback torn i n b).1 ∧
      SameGpu (gpuFitEpochs env train callback torn i n a).2 (gpuFitEpochs env train callback torn i n b).2
  | 0, _, _, _, _, _, h => ⟨rfl, h⟩
  | n + 1, i, a, b, ha, hb, h => by
    unfold gpuFitEpochs
    rw [h.2.1, h.2.2]
    cases train i ⟨a.user, a.item⟩ with
    | error e => exact ⟨rfl, h.1, rfl, rfl⟩
    | ok m =>
      simp only
      have hA : GpuCoherent env ({ a with user := m.user, item := m.item } : GpuState f R) := NoGpuCache.coherent env ha
      have hB : GpuCoherent env ({ b with user := m.user, item := m.item } : GpuState f R) := NoGpuCache.coherent env hb
      have eA := (C55_queries env _ hA (callback i)).2.2.2.2
      have eB := (C55_queries env _ hB (callback i)).2.2.2.2
      rw [gpuAsks_plain env _ _ (hcb i), gpuAsks_plain env _ _ (hcb i), eA, eB]
      simp only [h.1]
      split
      · exact ⟨rfl, rfl, rfl, rfl⟩
      · exact gpuFitEpochs_twin env train callback torn hcb n (i + 1) _ _ ha hb ⟨rfl, rfl, rfl⟩

theorem gpuPartialFitUsers_twin {env : GpuModelEnv f R} {a b : GpuState f R} (ha : GpuCoherent env a)
    (hb : GpuCoherent env b) (h : SameGpu a b) (order : List (Nat × Fin f)) (ids : List Int) (cols : Nat)
    (rows : SpRows R) :
    (gpuPartialFitUsers env order a ids cols rows).1 = (gpuPartialFitUsers env order b ids cols rows).1 ∧
      SameGpu (gpuPartialFitUsers env order a ids cols rows).2 (gpuPartialFitUsers env order b ids cols rows).2 := by
  unfold gpuPartialFitUsers
  split
  · exact ⟨rfl, h⟩
  split
  · exact ⟨rfl, h⟩
  have e := gpuRecalcUser_fresh ha hb h.2.2 ids.length cols rows
  have sa := gpuRecalcUser_same env a ids.length cols rows
  have sb := gpuRecalcUser_same env b ids.length cols rows
  rcases hra : gpuRecalcUser env a ids.length cols rows with ⟨ra, a'⟩
  rcases hrb : gpuRecalcUser env b ids.length cols rows with ⟨rb, b'⟩
  rw [hra] at e sa
  rw [hrb] at e sb
  simp only at e sa sb
  subst e
  have h' : SameGpu a' b' := ⟨by rw [sb.1, h.1, sa.1], by rw [sb.2.1, h.2.1, sa.2.1], by rw [sb.2.2, h.2.2, sa.2.2]⟩
  cases ra with
  | error e => exact ⟨rfl, h'⟩
  | ok xs =>
    simp only
    cases pyMaxInt ids with
    | error e => exact ⟨rfl, h'⟩
    | ok m =>
      simp only [h'.1, h'.2.1]
      split
      · exact ⟨rfl, rfl, rfl, h'.2.2⟩
      · cases order.foldlM (gpuAssignCell ids xs) (gpuGrow m a'.user) with
        | error e => exact ⟨rfl, rfl, rfl, h'.2.2⟩
        | ok u => exact ⟨rfl, rfl, rfl, h'.2.2⟩

theorem gpuOneCall_eq (env : GpuModelEnv f R) (st : GpuState f R) (op : GpuOp f R) :
    (gpuOneCall env st op).2 = (gpuOp env st op).2 ∧ isUndefined (gpuOneCall env st op).1 = isUndefined (gpuOp env st op).1 := by
  have hmap : ∀ {α β : Type} (g : α → β) (o : Except Err α), isUndefined (o.map g) = isUndefined o := by
    intro α β g o
    rcases o with e | v
    · cases e <;> rfl
    · rfl
  cases op with
  | query q => exact ⟨rfl, by simp only [gpuOneCall, gpuOp, hmap]⟩
  | _ => exact ⟨rfl, by simp only [gpuOneCall, hmap]⟩

theorem gpuOneCall_twin {env : GpuModelEnv f R} {a b : GpuState f R} (h : Twin env a b) {op : GpuOp f R}
    (hop : op.careful a.half) (hub : isUndefined (gpuOneCall env a op).1 = false) :
    (gpuOneCall env a op).1 = (gpuOneCall env b op).1 ∧ Twin env (gpuOneCall env a op).2 (gpuOneCall env b op).2 := by
  have key : (gpuOneCall env a op).1 = (gpuOneCall env b op).1 ∧ SameGpu (gpuOp env a op).2 (gpuOp env b op).2 := by
    cases op with
    | fit train callback torn epochs =>
      have hno : ∀ {s : GpuState f R}, KindOk env s → NoGpuCache (gpuInvalidate env s) := by
        intro s hk
        unfold gpuInvalidate
        cases hkind : env.kind with
        | als => exact ⟨rfl, rfl, rfl, rfl⟩
        | bpr => exact ⟨rfl, rfl, (hk hkind).1, (hk hkind).2⟩
      have hsame : SameGpu (gpuInvalidate env a) (gpuInvalidate env b) := by
        unfold gpuInvalidate
        cases env.kind <;> exact h.same
      obtain ⟨e1, e2⟩ := gpuFitEpochs_twin env train callback torn hop epochs 0 _ _ (hno h.kindLeft) (hno h.kindRight) hsame
      refine ⟨?_, e2⟩
      show (gpuFitCall env train callback torn epochs a).1.map _ = (gpuFitCall env train callback torn epochs b).1.map _
      unfold gpuFitCall
      rw [e1]
    | partialFitUsers order ids cols rows =>
      obtain ⟨e1, e2⟩ := gpuPartialFitUsers_twin h.left h.right h.same order ids cols rows
      refine ⟨?_, e2⟩
      show (gpuPartialFitUsers env order a ids cols rows).1.map _ = (gpuPartialFitUsers env order b ids cols rows).1.map _
      rw [e1]
    | partialFitItems order ids cols rows =>
      obtain ⟨e1, e2⟩ := gpuPartialFitUsers_twin h.left.swap h.right.swap ⟨h.same.1, h.same.2.2, h.same.2.1⟩ order ids cols
        rows
      refine ⟨?_, ?_⟩
      · show (gpuPartialFitItems env order a ids cols rows).1.map _ = (gpuPartialFitItems env order b ids cols rows).1.map _
        rw [gpuPartialFitItems_swap, gpuPartialFitItems_swap]
        simp only
        rw [e1]
      · show SameGpu (gpuPartialFitItems env order a ids cols rows).2 (gpuPartialFitItems env order b ids cols rows).2
        rw [gpuPartialFitItems_swap, gpuPartialFitItems_swap]
        exact ⟨e2.1, e2.2.2, e2.2.1⟩
    | query q =>
      have sa := gpuAsk_same env a q
      have sb := gpuAsk_same env b q
      refine ⟨?_, by rw [show (gpuOp env b (.query q)).2 = (gpuAsk env b q).2 from rfl, sb.1, h.same.1]; exact sa.1.symm,
        ?_, ?_⟩
      · show (gpuAsk env a q).1.map some = (gpuAsk env b q).1.map some
        rw [gpuAsk_agree h.left h.right h.same]
      · show (gpuAsk env b q).2.user = (gpuAsk env a q).2.user
        rw [sb.2.1, h.same.2.1, sa.2.1]
      · show (gpuAsk env b q).2.item = (gpuAsk env a q).2.item
        rw [sb.2.2, h.same.2.2, sa.2.2]
    | pickle =>
      show (gpuPickle a).1.map _ = (gpuPickle b).1.map _ ∧ SameGpu (gpuPickle a).2 (gpuPickle b).2
      unfold gpuPickle
      rw [h.same.2.1, h.same.2.2]
      split
      · exact ⟨rfl, h.same⟩
      · exact ⟨rfl, h.same.1, rfl, rfl⟩
    | viaCpu =>
      show (gpuViaCpu a).1.map _ = (gpuViaCpu b).1.map _ ∧ SameGpu (gpuViaCpu a).2 (gpuViaCpu b).2
      unfold gpuViaCpu
      rw [h.same.1, h.same.2.1, h.same.2.2]
      split
      · exact ⟨rfl, h.same⟩
      · exact ⟨rfl, rfl, rfl, rfl⟩
  have hubA : isUndefined (gpuOp env a op).1 = false := by rw [← (gpuOneCall_eq env a op).2]; exact hub
  have hubB : isUndefined (gpuOp env b op).1 = false := by
    rw [← (gpuOneCall_eq env b op).2, ← key.1]; exact hub
  have iA := gpuOp_invariant h.left h.kindLeft hop hubA
  have iB := gpuOp_invariant h.right h.kindRight (by rw [h.same.1]; exact hop) hubB
  refine ⟨key.1, ?_⟩
  rw [(gpuOneCall_eq env a op).1, (gpuOneCall_eq env b op).1]
  exact ⟨iA.1, iB.1, iA.2.1, iB.2.1, key.2⟩

theorem gpuOneCall_forgettable {env : GpuModelEnv f R} {st : GpuState f R} (h : GpuCoherent env st) (hk : KindOk env st)
    {op : GpuOp f R} (hop : op.careful st.half) (hub : isUndefined (gpuOneCall env st op).1 = false)
    (hf : Spec.GpuForgettable op (gpuOneCall env st op).1) : Twin env st (gpuOneCall env st op).2 := by
  have herr : ∀ {α β : Type} {g : α → β} {o : Except Err α} {e : Err}, o.map g = .error e → o = .error e := by
    intro α β g o e h
    cases o with
    | error e' => cases h; rfl
    | ok v => cases h
  have hub' : isUndefined (gpuOp env st op).1 = false := by rw [← (gpuOneCall_eq env st op).2]; exact hub
  have iA := gpuOp_invariant h hk hop hub'
  rw [(gpuOneCall_eq env st op).1]
  refine ⟨h, iA.1, hk, iA.2.1, ?_⟩
  have hne : ∀ e, (gpuOp env st op).1 = .error e → e ≠ .undefinedBehaviour := by
    rintro e he rfl
    rw [he] at hub'
    cases hub'
  cases op with
  | fit train callback torn epochs => exact hf.elim
  | partialFitUsers order ids cols rows =>
    obtain ⟨e, he⟩ := hf
    have he := herr he
    have := (C56_errors_partial env st hop order ids cols rows).1 e he (hne e he)
    exact ⟨iA.2.2, this.1, this.2⟩
  | partialFitItems order ids cols rows =>
    obtain ⟨e, he⟩ := hf
    have he : (gpuPartialFitItems env order st ids cols rows).1 = .error e := herr he
    have hn := hne e he
    rw [gpuPartialFitItems_swap] at he
    have := (C56_errors_partial env st.swap hop order ids cols rows).1 e he hn
    refine ⟨iA.2.2, ?_, ?_⟩
    · show (gpuPartialFitItems env order st ids cols rows).2.user = _
      rw [gpuPartialFitItems_swap]
      exact this.2
    · show (gpuPartialFitItems env order st ids cols rows).2.item = _
      rw [gpuPartialFitItems_swap]
      exact this.1
  | query q => exact gpuAsk_same env st q
  | pickle =>
    obtain ⟨e, he⟩ := hf
    have he : (gpuPickle st).1 = .error e := herr he
    show SameGpu st (gpuPickle st).2
    unfold gpuPickle at he ⊢
    split at he
    · rename_i hc; rw [if_pos hc]; exact SameGpu.refl st
    · cases he
  | viaCpu =>
    obtain ⟨e, he⟩ := hf
    have he : (gpuViaCpu st).1 = .error e := herr he
    show SameGpu st (gpuViaCpu st).2
    unfold gpuViaCpu at he ⊢
    split at he
    · rename_i hc; rw [if_pos hc]; exact SameGpu.refl st
    · cases he

theorem gpuCalls_picked {env : GpuModelEnv f R} : ∀ (ops : List (GpuOp f R)) (keep : List Bool) (a b fin : GpuState f R),
    Twin env a b → keep.length = ops.length → (∀ op ∈ ops, op.careful a.half) → (gpuCalls env a ops).2 = some fin →
    (∀ (k : Nat) op o, ops[k]? = some op → (gpuCalls env a ops).1[k]? = some o → keep[k]? = some false →
      Spec.GpuForgettable op o) →
    (gpuCalls env b (Spec.picked ops keep)).1 = Spec.picked (gpuCalls env a ops).1 keep ∧
      ∃ fin', (gpuCalls env b (Spec.picked ops keep)).2 = some fin' ∧ Twin env fin fin'
  | [], keep, a, b, fin, h, hl, _, hfin, _ => by
    have : keep = [] := List.length_eq_zero_iff.mp hl
    subst this
    have hfin : a = fin := by injection hfin
    subst hfin
    exact ⟨rfl, b, rfl, h⟩
  | op :: ops, [], _, _, _, _, hl, _, _, _ => by simp at hl
  | op :: ops, k :: keep, a, b, fin, h, hl, hc, hfin, hf => by
    have hub : isUndefined (gpuOneCall env a op).1 = false := by
      cases hu : isUndefined (gpuOneCall env a op).1 with
      | false => rfl
      | true =>
        unfold gpuCalls at hfin
        rw [hu, if_pos rfl] at hfin
        cases hfin
    have hrun : gpuCalls env a (op :: ops) = ((gpuOneCall env a op).1 :: (gpuCalls env (gpuOneCall env a op).2 ops).1,
        (gpuCalls env (gpuOneCall env a op).2 ops).2) := by
      rw [show gpuCalls env a (op :: ops) = if isUndefined (gpuOneCall env a op).1 then _ else _ from rfl, hub,
        if_neg (by simp)]
    rw [hrun] at hfin hf ⊢
    simp only at hfin hf ⊢
    have hl' : keep.length = ops.length := by simpa using hl
    have hcop := hc op (by simp)
    have hhalf : (gpuOneCall env a op).2.half = a.half := by
      rw [(gpuOneCall_eq env a op).1]
      exact (gpuOp_invariant h.left h.kindLeft hcop (by rw [← (gpuOneCall_eq env a op).2]; exact hub)).2.2
    have hc' : ∀ o ∈ ops, o.careful (gpuOneCall env a op).2.half := fun o ho => by
      rw [hhalf]; exact hc o (List.mem_cons_of_mem _ ho)
    have hf' : ∀ (j : Nat) d o, ops[j]? = some d → (gpuCalls env (gpuOneCall env a op).2 ops).1[j]? = some o →
        keep[j]? = some false → Spec.GpuForgettable d o := by
      intro j d o h1 h2 h3
      exact hf (j + 1) d o (by simpa using h1) (by simpa using h2) (by simpa using h3)
    cases k with
    | true =>
      obtain ⟨e1, e2⟩ := gpuOneCall_twin h hcop hub
      obtain ⟨i1, fin', i2, i3⟩ := gpuCalls_picked ops keep _ _ fin e2 hl' hc' hfin hf'
      have hrunB : gpuCalls env b (op :: Spec.picked ops keep) = ((gpuOneCall env b op).1 ::
          (gpuCalls env (gpuOneCall env b op).2 (Spec.picked ops keep)).1,
          (gpuCalls env (gpuOneCall env b op).2 (Spec.picked ops keep)).2) := by
        rw [show gpuCalls env b (op :: Spec.picked ops keep) = if isUndefined (gpuOneCall env b op).1 then _ else _ from rfl,
          ← e1, hub, if_neg (by simp)]
      rw [picked_cons, if_pos rfl, picked_cons, if_pos rfl, hrunB]
      exact ⟨by rw [i1, e1], fin', i2, i3⟩
    | false =>
      have t := gpuOneCall_forgettable h.left h.kindLeft hcop hub (hf 0 op _ rfl rfl rfl)
      have e2 : Twin env (gpuOneCall env a op).2 b := ⟨t.right, h.right, t.kindRight, h.kindRight,
        h.same.1.trans t.same.1.symm, h.same.2.1.trans t.same.2.1.symm, h.same.2.2.trans t.same.2.2.symm⟩
      obtain ⟨i1, fin', i2, i3⟩ := gpuCalls_picked ops keep _ _ fin e2 hl' hc' hfin hf'
      rw [picked_cons, if_neg (by simp), picked_cons, if_neg (by simp)]
      exact ⟨i1, fin', i2, i3⟩

/-- **C74** (GPU).  Leave out of a history of a GPU model (single precision if it uses `partial_fit_*`, callbacks that fill no
cache) any queries, and any raising calls other than `fit`: every remaining call has the outcome it had, the factors at the
end are the same, and every later query answers the same. -/
theorem C74_gpu_partial (env : GpuModelEnv f R) (half : Bool) (init : Factors f R) (ops : List (GpuOp f R))
    (keep : List Bool) (hl : keep.length = ops.length) (hops : ∀ op ∈ ops, op.careful half) (fin : GpuState f R)
    (hfin : (gpuCalls env (freshGpu half init) ops).2 = some fin)
    (hf : ∀ (k : Nat) op o, ops[k]? = some op → (gpuCalls env (freshGpu half init) ops).1[k]? = some o →
      keep[k]? = some false → Spec.GpuForgettable op o) :
    (gpuCalls env (freshGpu half init) (Spec.picked ops keep)).1 =
        Spec.picked (gpuCalls env (freshGpu half init) ops).1 keep ∧
      ∃ fin', (gpuCalls env (freshGpu half init) (Spec.picked ops keep)).2 = some fin' ∧ fin'.half = fin.half ∧
        fin'.user = fin.user ∧ fin'.item = fin.item ∧ ∀ q, (gpuAsk env fin' q).1 = (gpuAsk env fin q).1 := by
  have h0 : Twin env (freshGpu half init) (freshGpu half init) :=
    ⟨gpuCoherent_fresh _ _ _, gpuCoherent_fresh _ _ _, fun _ => ⟨rfl, rfl⟩, fun _ => ⟨rfl, rfl⟩, SameGpu.refl _⟩
  obtain ⟨h1, fin', h2, h3⟩ := gpuCalls_picked ops keep _ _ fin h0 hl hops hfin hf
  exact ⟨h1, fin', h2, h3.same.1, h3.same.2.1, h3.same.2.2, fun q => (gpuAsk_agree h3.left h3.right h3.same q).symm⟩

/-- **C74 is violated** on the GPU by half precision models: `partial_fit_items` for a new item raises `RuntimeError`, and item 2,
unknown before, is answered for. -/
theorem C74_gpu_half_violated :
    let q : GpuOp 1 Rat := .query (.similarItems (.one 2) 1 none none)
    ((gpuCalls (c55Env .als) (freshGpu true ⟨[![1]], [![1], ![1]]⟩) [.partialFitItems [] [2] 1 [[(0, 1)]], q]).1.map
      fun o => o.toOption.isSome) = [false, true] ∧
    ((gpuCalls (c55Env .als) (freshGpu true ⟨[![1]], [![1], ![1]]⟩) [q]).1.map fun o => o.toOption.isSome) = [false] := by
  decide +kernel

/-- A history with raising calls, and what is left of it. -/
example :
    let ops : List (GpuOp 1 Rat) := [.query (.similarItems (.one 7) 1 none none), .partialFitUsers [] [0, 1] 2 [[(0, 1)]],
      .partialFitUsers (assignCells 1 1) [0] 2 [[(0, 1)]], .pickle, .query c55Query]
    let st : GpuState 1 Rat := freshGpu false ⟨[![1]], [![1], ![2]]⟩
    ((gpuCalls (c55Env .als) st ops).1.map outcomeOf =
      [.error .valueError, .error .valueError, .ok [], .ok [], .ok [(0, 1), (1, 1)]]) ∧
    (gpuCalls (c55Env .als) st (Spec.picked ops [false, false, true, true, true])).1.map outcomeOf =
      [.ok [], .ok [], .ok [(0, 1), (1, 1)]] := by
  decide +kernel

end Implicit
