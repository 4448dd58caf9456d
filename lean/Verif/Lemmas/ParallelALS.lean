import Verif.Model.ParallelALS
import Verif.Lemmas.Parallel
import Verif.Lemmas.ALS
import Verif.Lemmas.Recommend

set_option linter.unusedSectionVars false

namespace Implicit

section generic
variable {I Sc Addr V : Type}

/-- Instructions that do not touch the shared memory are local to anything. -/
theorem localTo_pure {act : Act I Sc Addr V} {D : Set Addr} {i : I} (g : Sc → Sc)
    (h : ∀ s m, act i s m = (g s, m)) : LocalTo act D i :=
  ⟨fun s m a _ => by rw [h], fun s m m' hm => by rw [h, h]; exact ⟨rfl, hm⟩⟩
end generic

variable {R : Type} [LinearOrder R] [Field R] {f : Nat}

/-- The addresses of row `u`. -/
def rowAddrs (f : Nat) (u : Nat) : Set (Nat × Fin f) := {a | a.1 = u}

theorem rowAddrs_disjoint (u v : Nat) (h : u ≠ v) : Disjoint (rowAddrs f u) (rowAddrs f v) := by
  rw [Set.disjoint_left]
  intro a ha hb
  exact h (ha.symm.trans hb)

/-! ## `_least_squares` -/

/-- What one row task computes. -/
def lsResult (S : Solver f R) (G : Mat f R) (reg : R) (es : List (Vec f R × R)) :
    Option (Vec f R) :=
  if es.isEmpty then some (fun _ => 0)
  else S.solve (linearEquation G reg es).1 (linearEquation G reg es).2

theorem ls_local (S : Solver f R) (G : Mat f R) (reg : R) (es : List (Vec f R × R)) (u : Nat) :
    ∀ i ∈ lsProg es u, LocalTo (lsAct S G reg) (rowAddrs f u) i := by
  have hz : ∀ j, LocalTo (lsAct S G reg) (rowAddrs f u) (.zero u j) := by
    intro j
    refine ⟨fun s m a ha => ?_, fun s m m' hm => ⟨rfl, fun a ha => ?_⟩⟩
    · show Function.update m (u, j) 0 a = m a
      exact Function.update_of_ne (fun e => ha (by rw [e]; rfl)) _ _
    · show Function.update m (u, j) 0 a = Function.update m' (u, j) 0 a
      by_cases h : a = (u, j)
      · subst h; simp
      · rw [Function.update_of_ne h, Function.update_of_ne h, hm a ha]
  have hs : ∀ j, LocalTo (lsAct S G reg) (rowAddrs f u) (.store u j) := by
    intro j
    refine ⟨fun s m a ha => ?_, fun s m m' hm => ⟨rfl, fun a ha => ?_⟩⟩
    · show (if s.err then m else Function.update m (u, j) (s.b j)) a = m a
      split
      · rfl
      · exact Function.update_of_ne (fun e => ha (by rw [e]; rfl)) _ _
    · show (if s.err then m else Function.update m (u, j) (s.b j)) a =
        (if s.err then m' else Function.update m' (u, j) (s.b j)) a
      split
      · exact hm a ha
      · by_cases h : a = (u, j)
        · subst h; simp
        · rw [Function.update_of_ne h, Function.update_of_ne h, hm a ha]
  intro i hi
  unfold lsProg at hi
  split at hi
  · obtain ⟨j, _, rfl⟩ := List.mem_map.mp hi
    exact hz j
  · simp only [List.mem_append, List.mem_map, List.mem_cons, List.not_mem_nil, or_false] at hi
    rcases hi with (((rfl | rfl) | ⟨e, _, rfl⟩) | rfl) | ⟨j, _, rfl⟩
    · exact localTo_pure (fun s => { s with A := regularised G reg }) (fun s m => rfl)
    · exact localTo_pure (fun s => { s with b := fun _ => 0 }) (fun s m => rfl)
    · exact localTo_pure _ (fun s m => rfl)
    · exact localTo_pure _ (fun s m => rfl)
    · exact hs j

theorem ls_run_zero (S : Solver f R) (G : Mat f R) (reg : R) (u : Nat) (js : List (Fin f))
    (s : LSScratch f R) (m : Nat × Fin f → R) (j : Fin f) :
    (runInstrs (lsAct S G reg) (js.map (.zero u)) s m).2 (u, j) =
      if j ∈ js then 0 else m (u, j) := by
  induction js generalizing m with
  | nil => simp [runInstrs]
  | cons k js ih =>
    rw [List.map_cons]
    show (runInstrs (lsAct S G reg) (js.map (.zero u)) s (Function.update m (u, k) 0)).2 (u, j) = _
    rw [ih]
    by_cases h : j ∈ js
    · simp [h]
    · by_cases hk : j = k
      · subst hk; simp [h]
      · simp [h, hk, Function.update_of_ne]

theorem ls_run_store (S : Solver f R) (G : Mat f R) (reg : R) (u : Nat) (js : List (Fin f))
    (s : LSScratch f R) (m : Nat × Fin f → R) (j : Fin f) :
    (runInstrs (lsAct S G reg) (js.map (.store u)) s m).2 (u, j) =
      if s.err = false ∧ j ∈ js then s.b j else m (u, j) := by
  induction js generalizing m with
  | nil => simp [runInstrs]
  | cons k js ih =>
    rw [List.map_cons]
    show (runInstrs (lsAct S G reg) (js.map (.store u)) s
      (if s.err then m else Function.update m (u, k) (s.b k))).2 (u, j) = _
    rw [ih]
    cases he : s.err with
    | true => simp
    | false =>
      by_cases h : j ∈ js
      · simp [h]
      · by_cases hk : j = k
        · subst hk; simp [h]
        · simp [h, hk, Function.update_of_ne]

theorem ls_run_entries (S : Solver f R) (G : Mat f R) (reg : R) (es : List (Vec f R × R))
    (s : LSScratch f R) (m : Nat × Fin f → R) :
    runInstrs (lsAct S G reg) (es.map .entry) s m =
      ({ s with A := (es.foldl accumulate (s.A, s.b)).1, b := (es.foldl accumulate (s.A, s.b)).2 },
        m) := by
  induction es generalizing s with
  | nil => rfl
  | cons e es ih =>
    rw [List.map_cons]
    show runInstrs (lsAct S G reg) (es.map .entry) _ m = _
    rw [ih]
    rfl

theorem ls_effect (S : Solver f R) (G : Mat f R) (reg : R) (es : List (Vec f R × R)) (u : Nat)
    (s : LSScratch f R) (m : Nat × Fin f → R) (j : Fin f) :
    (runInstrs (lsAct S G reg) (lsProg es u) s m).2 (u, j) =
      match lsResult S G reg es with
      | some x => x j
      | none => m (u, j) := by
  unfold lsProg lsResult
  split
  · rw [ls_run_zero]; simp
  · rw [run_append, run_append, run_append]
    show (runInstrs (lsAct S G reg) ((List.finRange f).map (.store u))
      (runInstrs (lsAct S G reg) [.posv]
        (runInstrs (lsAct S G reg) (es.map .entry)
          ({ s with A := regularised G reg, b := fun _ => 0 }) m).1 _).1 _).2 (u, j) = _
    rw [ls_run_entries]
    show (runInstrs (lsAct S G reg) ((List.finRange f).map (.store u))
      (match S.solve (linearEquation G reg es).1 (linearEquation G reg es).2 with
        | some x => { s with A := (linearEquation G reg es).1, b := x, err := false }
        | none => { s with A := (linearEquation G reg es).1, b := (linearEquation G reg es).2,
                           err := true } : LSScratch f R) _).2 (u, j) = _
    rw [ls_run_store]
    cases S.solve (linearEquation G reg es).1 (linearEquation G reg es).2 with
    | some x => simp
    | none =>
      simp only [Bool.true_eq_false, false_and, if_false]
      show (runInstrs (lsAct S G reg) (es.map .entry) _ m).2 (u, j) = _
      rw [ls_run_entries]

theorem ls_taskSpec (S : Solver f R) (G : Mat f R) (reg : R) (es : Nat → List (Vec f R × R)) :
    TaskSpec (lsAct S G reg) (fun u => lsProg (es u) u) (rowAddrs f) (fun _ => True)
      (fun u m a => match lsResult S G reg (es u) with
        | some x => x a.2
        | none => m a) where
  disjoint := rowAddrs_disjoint
  localTo u := ls_local S G reg (es u) u
  effect u s m _ := by
    refine ⟨trivial, ?_⟩
    rintro ⟨v, j⟩ ha
    have : v = u := ha
    subst this
    exact ls_effect S G reg (es v) v s m j
  depends u m m' hm a ha := by
    cases lsResult S G reg (es u) with
    | some x => rfl
    | none => exact hm a ha

/-! ## `_least_squares_cg` -/

/-- What one row task of the CG loop computes. -/
def cgResult (G : Mat f R) (tol : R) (steps : Nat) (es : List (Vec f R × R)) (x : Vec f R) :
    Vec f R :=
  if es.isEmpty then fun _ => 0 else cgSolve G tol steps es x

theorem cgInstr_local (G : Mat f R) (tol : R) (u : Nat) :
    (∀ j, LocalTo (cgAct G tol) (rowAddrs f u) (.zero u j)) ∧
    LocalTo (cgAct G tol) (rowAddrs f u) (.resid u) ∧
    (∀ e, LocalTo (cgAct G tol) (rowAddrs f u) (.residEntry u e)) ∧
    LocalTo (cgAct G tol) (rowAddrs f u) .start ∧
    LocalTo (cgAct G tol) (rowAddrs f u) .ap ∧
    (∀ e, LocalTo (cgAct G tol) (rowAddrs f u) (.apEntry e)) ∧
    LocalTo (cgAct G tol) (rowAddrs f u) .alpha ∧
    (∀ j, LocalTo (cgAct G tol) (rowAddrs f u) (.storeX u j)) ∧
    LocalTo (cgAct G tol) (rowAddrs f u) .update := by
  have hrow : ∀ m m' : Nat × Fin f → R, (∀ a ∈ rowAddrs f u, m a = m' a) →
      (fun j => m (u, j)) = fun j => m' (u, j) := fun m m' hm => funext fun j => hm (u, j) rfl
  refine ⟨?_, ?_, ?_, ?_, ?_, ?_, ?_, ?_, ?_⟩
  · intro j
    refine ⟨fun s m a ha => ?_, fun s m m' hm => ⟨rfl, fun a ha => ?_⟩⟩
    · show Function.update m (u, j) 0 a = m a
      exact Function.update_of_ne (fun e => ha (by rw [e]; rfl)) _ _
    · show Function.update m (u, j) 0 a = Function.update m' (u, j) 0 a
      by_cases h : a = (u, j)
      · subst h; simp
      · rw [Function.update_of_ne h, Function.update_of_ne h, hm a ha]
  · refine ⟨fun s m a ha => rfl, fun s m m' hm => ⟨?_, fun a ha => hm a ha⟩⟩
    simp only [cgAct, hrow m m' hm]
  · intro e
    refine ⟨fun s m a ha => rfl, fun s m m' hm => ⟨?_, fun a ha => hm a ha⟩⟩
    simp only [cgAct, hrow m m' hm]
  · exact localTo_pure _ (fun s m => rfl)
  · exact localTo_pure _ (fun s m => rfl)
  · intro e; exact localTo_pure _ (fun s m => rfl)
  · exact localTo_pure _ (fun s m => rfl)
  · intro j
    refine ⟨fun s m a ha => ?_, fun s m m' hm => ⟨rfl, fun a ha => ?_⟩⟩
    · show (if s.stop then m else Function.update m (u, j) _) a = m a
      split
      · rfl
      · exact Function.update_of_ne (fun e => ha (by rw [e]; rfl)) _ _
    · show (if s.stop then m else Function.update m (u, j) (m (u, j) + s.alpha * s.p j)) a =
        (if s.stop then m' else Function.update m' (u, j) (m' (u, j) + s.alpha * s.p j)) a
      rw [hm (u, j) rfl]
      split
      · exact hm a ha
      · by_cases h : a = (u, j)
        · subst h; simp
        · rw [Function.update_of_ne h, Function.update_of_ne h, hm a ha]
  · exact localTo_pure _ (fun s m => rfl)

theorem cg_local (G : Mat f R) (tol : R) (steps : Nat) (es : List (Vec f R × R)) (u : Nat) :
    ∀ i ∈ cgProg steps es u, LocalTo (cgAct G tol) (rowAddrs f u) i := by
  obtain ⟨h1, h2, h3, h4, h5, h6, h7, h8, h9⟩ := cgInstr_local G tol (f := f) u
  intro i hi
  unfold cgProg at hi
  split at hi
  · obtain ⟨j, _, rfl⟩ := List.mem_map.mp hi
    exact h1 j
  · simp only [List.mem_append, List.mem_map, List.mem_singleton, List.mem_flatten,
      List.mem_replicate] at hi
    rcases hi with ((rfl | ⟨e, _, rfl⟩) | rfl) | ⟨l, ⟨_, rfl⟩, hi⟩
    · exact h2
    · exact h3 e
    · exact h4
    · unfold cgRound at hi
      simp only [List.mem_append, List.mem_map, List.mem_singleton] at hi
      rcases hi with (((rfl | ⟨e, _, rfl⟩) | rfl) | ⟨j, _, rfl⟩) | rfl
      · exact h5
      · exact h6 e
      · exact h7
      · exact h8 j
      · exact h9

theorem cg_run_zero (G : Mat f R) (tol : R) (u : Nat) (js : List (Fin f))
    (s : CGScratch f R) (m : Nat × Fin f → R) (j : Fin f) :
    (runInstrs (cgAct G tol) (js.map (.zero u)) s m).2 (u, j) =
      if j ∈ js then 0 else m (u, j) := by
  induction js generalizing m with
  | nil => simp [runInstrs]
  | cons k js ih =>
    rw [List.map_cons]
    show (runInstrs (cgAct G tol) (js.map (.zero u)) s (Function.update m (u, k) 0)).2 (u, j) = _
    rw [ih]
    by_cases h : j ∈ js
    · simp [h]
    · by_cases hk : j = k
      · subst hk; simp [h]
      · simp [h, hk, Function.update_of_ne]

theorem cg_run_residEntries (G : Mat f R) (tol : R) (u : Nat) (es : List (Vec f R × R))
    (s : CGScratch f R) (m : Nat × Fin f → R) :
    runInstrs (cgAct G tol) (es.map (.residEntry u)) s m =
      ({ s with r := es.foldl (fun r e =>
          if 0 < e.2 then axpy (e.2 - (e.2 - 1) * dot e.1 (fun j => m (u, j))) e.1 r
          else axpy (0 - (-e.2 - 1) * dot e.1 (fun j => m (u, j))) e.1 r) s.r }, m) := by
  induction es generalizing s with
  | nil => rfl
  | cons e es ih =>
    rw [List.map_cons]
    show runInstrs (cgAct G tol) (es.map (.residEntry u)) (cgAct G tol (.residEntry u e) s m).1 m = _
    rw [ih, List.foldl_cons]
    have : (cgAct G tol (.residEntry u e) s m).1.r =
        if 0 < e.2 then axpy (e.2 - (e.2 - 1) * dot e.1 (fun j => m (u, j))) e.1 s.r
          else axpy (0 - (-e.2 - 1) * dot e.1 (fun j => m (u, j))) e.1 s.r := by
      show axpy (if 0 < e.2 then _ else _) e.1 s.r = _
      split <;> rfl
    rw [this]
    rfl

theorem cg_run_apEntries (G : Mat f R) (tol : R) (es : List (Vec f R × R))
    (s : CGScratch f R) (m : Nat × Fin f → R) (hs : s.stop = false) :
    runInstrs (cgAct G tol) (es.map .apEntry) s m =
      ({ s with Ap := es.foldl (fun v e =>
          axpy (((if e.2 < 0 then -e.2 else e.2) - 1) * dot e.1 s.p) e.1 v) s.Ap }, m) := by
  induction es generalizing s with
  | nil => rfl
  | cons e es ih =>
    rw [List.map_cons]
    show runInstrs (cgAct G tol) (es.map .apEntry) (cgAct G tol (.apEntry e) s m).1 m = _
    set t := ((if e.2 < 0 then -e.2 else e.2) - 1) * dot e.1 s.p with ht
    have : (cgAct G tol (.apEntry e) s m).1 = { s with Ap := axpy t e.1 s.Ap } := by
      show (if s.stop then s else _) = _
      rw [hs]; rfl
    rw [this, ih { s with Ap := axpy t e.1 s.Ap } (by exact hs), List.foldl_cons]

theorem cg_run_store (G : Mat f R) (tol : R) (u : Nat) (js : List (Fin f)) (hjs : js.Nodup)
    (s : CGScratch f R) (hs : s.stop = false) (m : Nat × Fin f → R) :
    (runInstrs (cgAct G tol) (js.map (.storeX u)) s m).1 = s ∧
    ∀ j, (runInstrs (cgAct G tol) (js.map (.storeX u)) s m).2 (u, j) =
      if j ∈ js then m (u, j) + s.alpha * s.p j else m (u, j) := by
  induction js generalizing m with
  | nil => exact ⟨rfl, fun j => by simp [runInstrs]⟩
  | cons k js ih =>
    rw [List.nodup_cons] at hjs
    rw [List.map_cons]
    have hstep : runInstrs (cgAct G tol) (CGInstr.storeX u k :: js.map (.storeX u)) s m =
        runInstrs (cgAct G tol) (js.map (.storeX u)) s
          (Function.update m (u, k) (m (u, k) + s.alpha * s.p k)) := by
      show runInstrs (cgAct G tol) (js.map (.storeX u)) s (if s.stop then m else _) = _
      rw [hs]; rfl
    rw [hstep]
    obtain ⟨i1, i2⟩ := ih hjs.2 (Function.update m (u, k) (m (u, k) + s.alpha * s.p k))
    refine ⟨i1, fun j => ?_⟩
    rw [i2 j]
    by_cases hk : j = k
    · subst hk; simp [hjs.1]
    · have hne : ((u, j) : Nat × Fin f) ≠ (u, k) := by simpa using hk
      rw [Function.update_of_ne hne]
      simp [hk]

/-- A stopped task does nothing more. -/
theorem cg_run_stopped (G : Mat f R) (tol : R) (u : Nat) (es : List (Vec f R × R)) (n : Nat)
    (s : CGScratch f R) (hs : s.stop = true) (m : Nat × Fin f → R) :
    runInstrs (cgAct G tol) (List.replicate n (cgRound es u)).flatten s m = (s, m) := by
  have key : ∀ is : List (CGInstr f R), (∀ i ∈ is, cgAct G tol i s m = (s, m)) →
      runInstrs (cgAct G tol) is s m = (s, m) := by
    intro is
    induction is with
    | nil => intro _; rfl
    | cons i is ih =>
      intro h
      unfold runInstrs
      rw [h i (by simp)]
      exact ih (fun j hj => h j (by simp [hj]))
  apply key
  intro i hi
  simp only [List.mem_flatten, List.mem_replicate] at hi
  obtain ⟨l, ⟨_, rfl⟩, hi⟩ := hi
  unfold cgRound at hi
  simp only [List.mem_append, List.mem_map, List.mem_singleton] at hi
  rcases hi with (((rfl | ⟨e, _, rfl⟩) | rfl) | ⟨j, _, rfl⟩) | rfl <;> simp [cgAct, hs]

/-- One round. -/
theorem cg_run_round (G : Mat f R) (tol : R) (u : Nat) (es : List (Vec f R × R))
    (s : CGScratch f R) (hs : s.stop = false) (m : Nat × Fin f → R) :
    let c := cgStep (cgApply G es) ⟨fun j => m (u, j), s.r, s.p, s.rsold⟩
    let res := runInstrs (cgAct G tol) (cgRound es u) s m
    (∀ j, res.2 (u, j) = c.x j) ∧ res.1.stop = decide (c.rsold < tol) ∧
      (res.1.stop = false → res.1.r = c.r ∧ res.1.p = c.p ∧ res.1.rsold = c.rsold) := by
  obtain ⟨r0, p0, Ap0, rs0, al0, st0⟩ := s
  have hst : st0 = false := hs
  subst hst
  intro c res
  set s : CGScratch f R := ⟨r0, p0, Ap0, rs0, al0, false⟩ with hsdef
  have h1 : runInstrs (cgAct G tol) [CGInstr.ap] s m = ({ s with Ap := mulVec G s.p }, m) := by
    rfl
  have h2 : runInstrs (cgAct G tol) ([CGInstr.ap] ++ es.map .apEntry) s m =
      ({ s with Ap := cgApply G es s.p }, m) := by
    rw [run_append, h1, cg_run_apEntries _ _ _ _ _ (by exact hs)]
    rfl
  set al := s.rsold / dot s.p (cgApply G es s.p) with hal
  set s3 : CGScratch f R := { s with Ap := cgApply G es s.p, alpha := al } with hs3
  have h3 : runInstrs (cgAct G tol) ([CGInstr.ap] ++ es.map .apEntry ++ [.alpha]) s m =
      (s3, m) := by
    rw [run_append, h2]
    rfl
  obtain ⟨h4, h5⟩ := cg_run_store G tol u (List.finRange f) (List.nodup_finRange f) s3
    (by exact hs) m
  have h6 : res = runInstrs (cgAct G tol) [CGInstr.update]
      s3 (runInstrs (cgAct G tol) ((List.finRange f).map (.storeX u)) s3 m).2 := by
    show runInstrs (cgAct G tol) (cgRound es u) s m = _
    unfold cgRound
    rw [run_append, run_append, h3, h4]
  have h7 : res.2 = (runInstrs (cgAct G tol) ((List.finRange f).map (.storeX u)) s3 m).2 := by
    rw [h6]; rfl
  have h8 : res.1 = if c.rsold < tol then { s3 with r := c.r, stop := true }
      else { s3 with r := c.r, p := c.p, rsold := c.rsold } := by
    rw [h6]
    rfl
  refine ⟨fun j => ?_, ?_, ?_⟩
  · rw [h7, h5 j]; simp; rfl
  · rw [h8]
    by_cases hc : c.rsold < tol
    · simp [hc]
    · simp [hc]; exact hs
  · rw [h8]
    by_cases hc : c.rsold < tol
    · simp [hc]
    · simp [hc]

theorem cg_run_rounds (G : Mat f R) (tol : R) (u : Nat) (es : List (Vec f R × R)) (n : Nat)
    (s : CGScratch f R) (hs : s.stop = false) (m : Nat × Fin f → R) (j : Fin f) :
    (runInstrs (cgAct G tol) (List.replicate n (cgRound es u)).flatten s m).2 (u, j) =
      cgLoop (cgApply G es) tol n ⟨fun j => m (u, j), s.r, s.p, s.rsold⟩ j := by
  induction n generalizing s m with
  | zero => rfl
  | succ n ih =>
    rw [List.replicate_succ, List.flatten_cons, run_append]
    obtain ⟨h1, h2, h3⟩ := cg_run_round G tol u es s hs m
    unfold cgLoop
    by_cases hc : (cgStep (cgApply G es) ⟨fun j => m (u, j), s.r, s.p, s.rsold⟩).rsold < tol
    · simp only [hc, if_true]
      rw [cg_run_stopped _ _ _ _ _ _ (by rw [h2]; simp [hc])]
      exact h1 j
    · simp only [hc, if_false]
      have hst : (runInstrs (cgAct G tol) (cgRound es u) s m).1.stop = false := by
        rw [h2]; simp [hc]
      obtain ⟨h4, h5, h6⟩ := h3 hst
      rw [ih _ hst, h4, h5, h6, funext h1]

theorem cg_effect (G : Mat f R) (tol : R) (steps : Nat) (es : List (Vec f R × R)) (u : Nat)
    (s : CGScratch f R) (m : Nat × Fin f → R) (j : Fin f) :
    (runInstrs (cgAct G tol) (cgProg steps es u) s m).2 (u, j) =
      cgResult G tol steps es (fun j => m (u, j)) j := by
  unfold cgProg cgResult
  split
  · rw [cg_run_zero]; simp
  · set r := cgResidual G es (fun j => m (u, j)) with hr
    have h1 : runInstrs (cgAct G tol) ([CGInstr.resid u] ++ es.map (.residEntry u) ++ [.start]) s m =
        ({ s with r := r, p := r, rsold := dot r r, stop := decide (dot r r < tol) }, m) := by
      rw [run_append, run_append]
      have : runInstrs (cgAct G tol) [CGInstr.resid u] s m =
          ({ s with r := fun a => -1 * mulVec G (fun j => m (u, j)) a, stop := false }, m) := rfl
      rw [this, cg_run_residEntries]
      rfl
    rw [run_append, h1]
    unfold cgSolve
    by_cases hc : dot r r < tol
    · rw [cg_run_stopped _ _ _ _ _ _ (by simp [hc])]
      simp only [← hr, hc, if_true]
    · rw [cg_run_rounds _ _ _ _ _ _ (by simp [hc])]
      simp only [← hr, hc, if_false]

theorem cg_taskSpec (G : Mat f R) (tol : R) (steps : Nat) (es : Nat → List (Vec f R × R)) :
    TaskSpec (cgAct G tol) (fun u => cgProg steps (es u) u) (rowAddrs f) (fun _ => True)
      (fun u m a => cgResult G tol steps (es u) (fun j => m (u, j)) a.2) where
  disjoint := rowAddrs_disjoint
  localTo u := cg_local G tol steps (es u) u
  effect u s m _ := by
    refine ⟨trivial, ?_⟩
    rintro ⟨v, j⟩ ha
    have : v = u := ha
    subst this
    exact cg_effect G tol steps (es v) v s m j
  depends u m m' hm a ha := by
    have : (fun j => m (u, j)) = fun j => m' (u, j) := funext fun j => hm (u, j) rfl
    simp only [this]

end Implicit
