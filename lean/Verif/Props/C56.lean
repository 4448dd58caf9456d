import Verif.Lemmas.GpuPartialFit
import Verif.Props.C54
import Verif.Props.C55

/-!
# C56 — `partial_fit` of the GPU ALS model changes exactly the named rows

Holds for single precision models, non-negative ids and at least one stored interaction.  The order in which the
device assigns the elements is arbitrary; it matters only if an id is named twice.
-/

set_option linter.unusedSectionVars false

namespace Implicit

variable {R : Type} [LinearOrder R] [Field R] {f : Nat}

theorem gpuPartialFitUsers_ok [IsStrictOrderedRing R] {env : GpuModelEnv f R} {st : GpuState f R}
    (hst : GpuCoherent env st) (hkind : env.kind = .als) (hhalf : st.half = false) (htol : 0 < env.tol)
    (hreg : 0 < env.p.regularization) {ids : List Int} (hpos : ∀ i ∈ ids, 0 ≤ i) {rows : SpRows R}
    (hlen : ids.length = rows.length) (hv : ∀ row ∈ rows, Spec.ValidRow st.item.length row)
    (hne : ∃ row ∈ rows, row ≠ []) {order : List (Nat × Fin f)} (horder : order.Perm (assignCells f ids.length)) :
    ∃ xs st', gpuPartialFitUsers env order st ids st.item.length rows = (.ok (), st') ∧
      (gpuAsk env st (.recalculateUser (.many (ids.map Int.toNat)) st.item.length rows)).1 = .ok (.vectors xs) ∧
      xs.length = ids.length ∧
      (∀ (k : Nat) row x, (applyAlpha env.p.alpha rows)[k]? = some row → xs[k]? = some x →
        ∑ j, Spec.residual st.item row env.p.regularization x j ^ 2 < env.tol) ∧
      Spec.RowsMixed 0 (ids.map Int.toNat) xs st.user st'.user ∧ st'.item = st.item ∧ GpuCoherent env st' := by
  obtain ⟨xs, hxs, hxl, hres⟩ := C54_recalculate (f := f) htol env.p hreg st.item rows hv
  have hall : ¬ rows.all List.isEmpty = true := by
    intro hall
    obtain ⟨row, hr, hn⟩ := hne
    have := List.all_eq_true.mp hall row hr
    cases row with
    | nil => exact hn rfl
    | cons => cases this
  have hrec : (gpuRecalcUser env st ids.length st.item.length rows).1 = .ok xs := by
    rw [gpuRecalcUser_fst hst, hkind]
    simp only
    rw [if_neg hall, hlen, hxs]
  have hidne : ids ≠ [] := by
    obtain ⟨row, hr, -⟩ := hne
    intro h
    rw [h] at hlen
    rw [List.length_eq_zero_iff.mp hlen.symm] at hr
    cases hr
  obtain ⟨m, hm⟩ : ∃ m, pyMaxInt ids = .ok m := by
    cases ids with
    | nil => exact absurd rfl hidne
    | cons i is => exact ⟨_, rfl⟩
  obtain ⟨new, hnew, hspec⟩ := rowsMixed_assign hm hpos (hxl.trans hlen.symm) horder st.user
  have hs := gpuRecalcUser_same env st ids.length st.item.length rows
  have hc := gpuRecalcUser_coherent hst ids.length st.item.length rows
  rcases hr : gpuRecalcUser env st ids.length st.item.length rows with ⟨r, st1⟩
  rw [hr] at hrec hs hc
  simp only at hrec hs hc
  subst hrec
  have heq : gpuPartialFitUsers env order st ids st.item.length rows =
      (.ok (), { st1 with user := new, userNorms := none, userNormsHost := none, XtX := none }) := by
    unfold gpuPartialFitUsers
    rw [if_neg (by rw [hkind]; decide), if_neg (by simpa using hlen), hr]
    simp only [hm]
    rw [if_neg (by rw [hs.1, hhalf]; decide), hs.2.1, hnew]
  refine ⟨xs, _, heq, ?_, hxl.trans hlen.symm, fun k row x h1 h2 => (hres k row x h1 h2).1, hspec, hs.2.2,
    ⟨fun n e => (by cases e), hc.itemNorms, hc.YtY, fun n e => (by cases e)⟩⟩
  have hcount : (Ids.many (ids.map Int.toNat)).count = ids.length := by simp [Ids.count]
  simp only [gpuAsk]
  rw [hcount, hr]
  rfl

/-- **C56** (users).  `partial_fit_users` in single precision: every named user gets the vector that
`recalculate_user` returns for the same interactions (which solves the user's equations up to `1e-20`), all other
users and all items keep theirs, and new rows that are not named are zero.  If an id is named several times each
element comes from one of its vectors. -/
theorem C56_users_partial [IsStrictOrderedRing R] (env : GpuModelEnv f R) (st : GpuState f R)
    (hst : GpuCoherent env st) (hkind : env.kind = .als) (hhalf : st.half = false) (htol : 0 < env.tol)
    (hreg : 0 < env.p.regularization) (ids : List Int) (hpos : ∀ i ∈ ids, 0 ≤ i) (rows : SpRows R)
    (hlen : ids.length = rows.length) (hv : ∀ row ∈ rows, Spec.ValidRow st.item.length row)
    (hne : ∃ row ∈ rows, row ≠ []) (order : List (Nat × Fin f)) (horder : order.Perm (assignCells f ids.length)) :
    ∃ xs st', gpuPartialFitUsers env order st ids st.item.length rows = (.ok (), st') ∧
      (gpuAsk env st (.recalculateUser (.many (ids.map Int.toNat)) st.item.length rows)).1 = .ok (.vectors xs) ∧
      xs.length = ids.length ∧
      (∀ (k : Nat) row x, (applyAlpha env.p.alpha rows)[k]? = some row → xs[k]? = some x →
        ∑ j, Spec.residual st.item row env.p.regularization x j ^ 2 < env.tol) ∧
      Spec.RowsMixed 0 (ids.map Int.toNat) xs st.user st'.user ∧
      (ids.Nodup → Spec.RowsUpdated (fun _ => 0) (ids.map Int.toNat) xs st.user st'.user) ∧
      st'.item = st.item := by
  obtain ⟨xs, st', h1, h2, hl, h3, h4, h5, -⟩ :=
    gpuPartialFitUsers_ok hst hkind hhalf htol hreg hpos hlen hv hne horder
  refine ⟨xs, st', h1, h2, hl, h3, h4, fun hnd => rowsUpdated_of_mixed ?_ h4, h5⟩
  refine List.Nodup.map_on ?_ hnd
  intro a ha b hb hab
  have := hpos a ha
  have := hpos b hb
  omega

/-- **C56** (items). -/
theorem C56_items_partial [IsStrictOrderedRing R] (env : GpuModelEnv f R) (st : GpuState f R)
    (hst : GpuCoherent env st) (hkind : env.kind = .als) (hhalf : st.half = false) (htol : 0 < env.tol)
    (hreg : 0 < env.p.regularization) (ids : List Int) (hpos : ∀ i ∈ ids, 0 ≤ i) (rows : SpRows R)
    (hlen : ids.length = rows.length) (hv : ∀ row ∈ rows, Spec.ValidRow st.user.length row)
    (hne : ∃ row ∈ rows, row ≠ []) (order : List (Nat × Fin f)) (horder : order.Perm (assignCells f ids.length)) :
    ∃ xs st', gpuPartialFitItems env order st ids st.user.length rows = (.ok (), st') ∧
      (gpuAsk env st (.recalculateItem (.many (ids.map Int.toNat)) st.user.length rows)).1 = .ok (.vectors xs) ∧
      xs.length = ids.length ∧
      (∀ (k : Nat) row x, (applyAlpha env.p.alpha rows)[k]? = some row → xs[k]? = some x →
        ∑ j, Spec.residual st.user row env.p.regularization x j ^ 2 < env.tol) ∧
      Spec.RowsMixed 0 (ids.map Int.toNat) xs st.item st'.item ∧
      (ids.Nodup → Spec.RowsUpdated (fun _ => 0) (ids.map Int.toNat) xs st.item st'.item) ∧
      st'.user = st.user := by
  obtain ⟨xs, st', h1, h2, hl, h3, h4, h5, h6⟩ :=
    C56_users_partial env st.swap hst.swap hkind hhalf htol hreg ids hpos rows hlen hv hne order horder
  refine ⟨xs, st'.swap, ?_, ?_, hl, h3, h4, h5, h6⟩
  · rw [gpuPartialFitItems_swap]
    have : gpuPartialFitUsers env order st.swap ids st.user.length rows = (.ok (), st') := h1
    rw [this]
  · simp only [gpuAsk] at h2 ⊢
    rw [gpuRecalcItem_swap]
    exact h2

/-- **C56** (order).  With distinct ids the result does not depend on the order in which the device assigns the
elements. -/
theorem C56_order_partial [IsStrictOrderedRing R] (env : GpuModelEnv f R) (st : GpuState f R)
    (hst : GpuCoherent env st) (hkind : env.kind = .als) (hhalf : st.half = false) (htol : 0 < env.tol)
    (hreg : 0 < env.p.regularization) (ids : List Int) (hpos : ∀ i ∈ ids, 0 ≤ i) (hnd : ids.Nodup) (rows : SpRows R)
    (hlen : ids.length = rows.length) (hv : ∀ row ∈ rows, Spec.ValidRow st.item.length row)
    (hne : ∃ row ∈ rows, row ≠ []) (order order' : List (Nat × Fin f))
    (horder : order.Perm (assignCells f ids.length)) (horder' : order'.Perm (assignCells f ids.length)) :
    (gpuPartialFitUsers env order st ids st.item.length rows).2.user =
      (gpuPartialFitUsers env order' st ids st.item.length rows).2.user := by
  obtain ⟨xs, st1, h1, h2, hxl, -, -, h3, -⟩ :=
    C56_users_partial env st hst hkind hhalf htol hreg ids hpos rows hlen hv hne order horder
  obtain ⟨xs', st2, h1', h2', -, -, -, h3', -⟩ :=
    C56_users_partial env st hst hkind hhalf htol hreg ids hpos rows hlen hv hne order' horder'
  rw [h1, h1']
  rw [h2] at h2'
  cases h2'
  exact rowsUpdated_unique (by simpa using hxl) (h3 hnd) (h3' hnd)

/-- **C56** (errors).  In single precision an exception (other than undefined behaviour) leaves all factors as they
were; a wrong number of rows is a `ValueError`, interactions without any stored entry an `IndexError`. -/
theorem C56_errors_partial (env : GpuModelEnv f R) (st : GpuState f R) (hhalf : st.half = false)
    (order : List (Nat × Fin f)) (ids : List Int) (cols : Nat) (rows : SpRows R) :
    (∀ e, (gpuPartialFitUsers env order st ids cols rows).1 = .error e → e ≠ .undefinedBehaviour →
      (gpuPartialFitUsers env order st ids cols rows).2.user = st.user ∧
      (gpuPartialFitUsers env order st ids cols rows).2.item = st.item) ∧
    (env.kind = .als → ids.length ≠ rows.length →
      (gpuPartialFitUsers env order st ids cols rows).1 = .error .valueError) ∧
    (env.kind = .als → ids.length = rows.length → (∀ row ∈ rows, row = []) →
      (gpuPartialFitUsers env order st ids cols rows).1 = .error .indexError) := by
  have hs := gpuRecalcUser_same env st ids.length cols rows
  refine ⟨?_, ?_, ?_⟩
  · intro e he hne
    rcases gpuPartialFitUsers_cases env order st ids cols rows with
      ⟨e, st', heq, rfl | rfl⟩ | ⟨m, st', rfl, -, hh, -⟩ | ⟨xs, m, st', out, rfl, -, hm, -, -, -, hout, heq⟩
    · rw [heq]; exact ⟨rfl, rfl⟩
    · rw [heq]; exact ⟨hs.2.1, hs.2.2⟩
    · rw [hhalf] at hh; cases hh
    · cases out with
      | ok u => rw [heq] at he; cases he
      | error e' =>
        exfalso
        rw [heq] at he
        cases he
        have herr : ∀ (order : List (Nat × Fin f)) (l : List (Vec f R)) e,
            order.foldlM (gpuAssignCell ids xs) l = .error e → e = .undefinedBehaviour := by
          intro order
          induction order with
          | nil => intro l e h; cases h
          | cons c cs ih =>
            intro l e h
            rw [List.foldlM_cons] at h
            cases hc : gpuAssignCell ids xs l c with
            | error e' =>
              rw [hc] at h
              cases h
              unfold gpuAssignCell at hc
              split at hc
              · split at hc
                · cases hc; rfl
                · split at hc <;> cases hc
                  rfl
              · cases hc; rfl
            | ok l' => rw [hc] at h; exact ih l' e h
        exact hne (herr _ _ _ hout)
  · intro hk hl
    unfold gpuPartialFitUsers
    rw [if_neg (by rw [hk]; decide), if_pos hl]
  · intro hk hl hall
    unfold gpuPartialFitUsers
    rw [if_neg (by rw [hk]; decide), if_neg (by simpa using hl)]
    unfold gpuRecalcUser
    rw [hk]
    simp only
    rw [if_pos]
    exact List.all_eq_true.mpr fun row hr => by rw [hall row hr]; rfl

/-- A history in which user `u` is never named, and which has no `fit`. -/
def GpuOp.spares (u : Nat) : GpuOp f R → Prop
  | .fit .. => False
  | .partialFitUsers _ ids _ _ => (u : Int) ∉ ids
  | _ => True

/-- **C56** (histories).  Without `fit`, and in either precision, a user that is never named keeps its vector through
any sequence of operations that does not run into undefined behaviour. -/
theorem C56_untouched (env : GpuModelEnv f R) (ops : List (GpuOp f R)) (st st' : GpuState f R) (u : Nat)
    (hu : u < st.user.length) (hops : ∀ op ∈ ops, op.spares u) (hrun : gpuRun env st ops = some st') :
    st'.user[u]? = st.user[u]? := by
  have users : ∀ (st : GpuState f R) order ids cols rows, u < st.user.length → (u : Int) ∉ ids →
      isUndefined (gpuPartialFitUsers env order st ids cols rows).1 = false →
      (gpuPartialFitUsers env order st ids cols rows).2.user[u]? = st.user[u]? := by
    intro st order ids cols rows hu hn hub
    have hs := gpuRecalcUser_same env st ids.length cols rows
    rcases gpuPartialFitUsers_cases env order st ids cols rows with
      ⟨e, st', heq, rfl | rfl⟩ | ⟨m, st', rfl, -, -, heq⟩ | ⟨xs, m, st', out, rfl, -, hm, -, -, -, hout, heq⟩
    · rw [heq]
    · rw [heq, hs.2.1]
    · rw [heq]
      show (gpuGrow m (gpuRecalcUser env st ids.length cols rows).2.user)[u]? = _
      rw [hs.2.1, gpuGrow_old hu]
    · cases out with
      | ok v =>
        rw [heq]
        show v[u]? = _
        rw [(assign_untouched ids xs order _ v hout).2 u hn, gpuGrow_old hu]
      | error e =>
        rw [heq]
        show (gpuGrow m (gpuRecalcUser env st ids.length cols rows).2.user)[u]? = _
        rw [hs.2.1, gpuGrow_old hu]
  have items : ∀ (st : GpuState f R) order ids cols rows,
      (gpuPartialFitItems env order st ids cols rows).2.user = st.user := by
    intro st order ids cols rows
    rw [gpuPartialFitItems_swap]
    show (gpuPartialFitUsers env order st.swap ids cols rows).2.item = _
    have hs := gpuRecalcUser_same env st.swap ids.length cols rows
    rcases gpuPartialFitUsers_cases env order st.swap ids cols rows with
      ⟨e, st', heq, rfl | rfl⟩ | ⟨m, st', rfl, -, -, heq⟩ | ⟨xs, m, st', out, rfl, -, hm, -, -, -, hout, heq⟩
    · rw [heq]; rfl
    · rw [heq]; exact hs.2.2
    · rw [heq]; exact hs.2.2
    · rw [heq]
      cases out <;> exact hs.2.2
  induction ops generalizing st with
  | nil => cases hrun; rfl
  | cons op ops ih =>
    unfold gpuRun at hrun
    split at hrun
    · cases hrun
    · rename_i hub
      have hub : isUndefined (gpuOp env st op).1 = false := by simpa using hub
      have hstep : (gpuOp env st op).2.user[u]? = st.user[u]? := by
        have hop := hops op (by simp)
        cases op with
        | fit => exact absurd hop id
        | partialFitUsers order ids cols rows => exact users st order ids cols rows hu hop hub
        | partialFitItems order ids cols rows =>
          show (gpuPartialFitItems env order st ids cols rows).2.user[u]? = _
          rw [items]
        | query q => show (gpuAsk env st q).2.user[u]? = _; rw [(gpuAsk_same env st q).2.1]
        | pickle =>
          show (gpuPickle st).2.user[u]? = _
          unfold gpuPickle
          split <;> rfl
        | viaCpu =>
          show (gpuViaCpu st).2.user[u]? = _
          unfold gpuViaCpu
          split <;> rfl
      have hlt : u < (gpuOp env st op).2.user.length := by
        rw [List.getElem?_eq_getElem hu] at hstep
        exact (List.getElem?_eq_some_iff.mp hstep).1
      rw [ih _ hlt (fun o ho => hops o (List.mem_cons_of_mem _ ho)) hrun, hstep]

/-! ## Where it fails, and examples -/

/-- Two factors. -/
def c56Env : GpuModelEnv 2 Rat :=
  ⟨.als, testEnv, fun v => |v 0|, 1 / 10 ^ 10, 1 / 10 ^ 20, ⟨1, 1, 3, 2⟩⟩

/-- **C56 is violated** when an id is named twice: depending on the order of the device the user ends up with a
mixture of the two vectors `(1, 1)` and `(0, 0)`. -/
theorem C56_duplicate_violated :
    let st : GpuState 2 Rat := freshGpu false ⟨[![5, 5]], [![1, 1]]⟩
    let rows : SpRows Rat := [[(0, 3)], []]
    let run := fun order => (gpuPartialFitUsers c56Env order st [0, 0] 1 rows).2.user
    [(0, 0), (0, 1), (1, 0), (1, 1)].Perm (assignCells 2 2) ∧ [(0, 0), (1, 1), (1, 0), (0, 1)].Perm (assignCells 2 2) ∧
      run [(0, 0), (0, 1), (1, 0), (1, 1)] = [![0, 0]] ∧
      run [(0, 0), (1, 1), (1, 0), (0, 1)] = [![0, 3 / 7]] := by
  decide +kernel

/-- **C56 is violated** in half precision: every call with valid arguments raises `RuntimeError`, and if a new id is
named the model has the new rows nevertheless. -/
theorem C56_half_violated [IsStrictOrderedRing R] (env : GpuModelEnv f R) (st : GpuState f R)
    (hst : GpuCoherent env st) (hkind : env.kind = .als) (hhalf : st.half = true) (htol : 0 < env.tol)
    (hreg : 0 < env.p.regularization) (id : Nat) (row : List (Nat × R))
    (hv : Spec.ValidRow st.item.length row) (hne : row ≠ []) (order : List (Nat × Fin f)) :
    (gpuPartialFitUsers env order st [(id : Int)] st.item.length [row]).1 = .error .runtimeError ∧
      (gpuPartialFitUsers env order st [(id : Int)] st.item.length [row]).2.user =
        st.user ++ List.replicate (id + 1 - st.user.length) fun _ => 0 := by
  obtain ⟨xs, hxs, -, -⟩ := C54_recalculate (f := f) htol env.p hreg st.item [row] (by simpa using hv)
  have hrec : (gpuRecalcUser env st 1 st.item.length [row]).1 = .ok xs := by
    rw [gpuRecalcUser_fst hst, hkind]
    simp only
    rw [if_neg (by simpa using hne)]
    exact hxs
  have hs := gpuRecalcUser_same env st 1 st.item.length [row]
  rcases hr : gpuRecalcUser env st 1 st.item.length [row] with ⟨r, st1⟩
  rw [hr] at hrec hs
  simp only at hrec hs
  subst hrec
  have heq : gpuPartialFitUsers env order st [(id : Int)] st.item.length [row] =
      (.error .runtimeError, { st1 with user := gpuGrow id st1.user }) := by
    unfold gpuPartialFitUsers
    rw [if_neg (by rw [hkind]; decide), if_neg (by simp)]
    simp only [List.length_cons, List.length_nil, Nat.zero_add]
    rw [hr]
    simp only [pyMaxInt, List.foldl_nil]
    rw [if_pos (hs.1.trans hhalf)]
  rw [heq]
  refine ⟨rfl, ?_⟩
  show gpuGrow id st1.user = _
  rw [hs.2.1]
  unfold gpuGrow growTo
  split
  · rw [Int.toNat_natCast, if_pos (by omega)]
    congr 2
    omega
  · rename_i h
    rw [show id + 1 - st.user.length = 0 by omega]
    simp

/-- **C56 is violated** for a negative id: not an exception but undefined behaviour (a write outside the table). -/
theorem C56_negative_violated :
    let st : GpuState 2 Rat := freshGpu false ⟨[![5, 5]], [![1, 1]]⟩
    isUndefined (gpuPartialFitUsers c56Env (assignCells 2 1) st [-1] 1 [[(0, 3)]]).1 = true := by
  decide +kernel

/-- A user without interactions cannot be updated on its own: `IndexError` (the CPU model stores a zero vector). -/
theorem C56_empty_user_violated (env : GpuModelEnv f R) (hkind : env.kind = .als) (st : GpuState f R)
    (order : List (Nat × Fin f)) (id : Int) (cols : Nat) :
    gpuPartialFitUsers env order st [id] cols [[]] = (.error .indexError, st) := by
  unfold gpuPartialFitUsers gpuRecalcUser
  rw [hkind]
  rfl

/-- The hypotheses of `C56_users_partial` hold for a known and a new user, and an order that is not the natural one. -/
example :
    let st : GpuState 2 Rat := freshGpu false ⟨[![5, 5], ![6, 6]], [![1, 1], ![0, 2]]⟩
    let rows : SpRows Rat := [[(0, 3)], [(1, 2), (0, 1)]]
    let order : List (Nat × Fin 2) := [(1, 1), (0, 0), (1, 0), (0, 1)]
    GpuCoherent c56Env st ∧ order.Perm (assignCells 2 2) ∧ (∀ row ∈ rows, Spec.ValidRow st.item.length row) ∧
      (gpuPartialFitUsers c56Env order st [3, 0] 2 rows).2.user =
        [![5 / 19, 9 / 19], ![6, 6], ![0, 0], ![15 / 23, 3 / 23]] := by
  refine ⟨gpuCoherent_fresh _ _ _, by decide +kernel, ?_, by decide +kernel⟩
  intro row hrow
  simp at hrow
  rcases hrow with rfl | rfl <;> exact ⟨by decide, by decide⟩

end Implicit
