import Verif.Model.GpuKernel
import Verif.Spec.GpuKernel
import Verif.Lemmas.ParallelALS
import Mathlib.Algebra.BigOperators.Ring.List
import Mathlib.Tactic.Ring

set_option linter.unusedSectionVars false

namespace Implicit

variable {R : Type} [LinearOrder R] [Field R] {f : Nat}

/-! ## The grid-stride loop -/

theorem mem_gridStride {g n : Nat} (hg : 0 < g) (u v : Nat) :
    v ∈ gridStride g n u ↔ v < n ∧ u ≤ v ∧ v % g = u % g := by
  induction h : n - u using Nat.strong_induction_on generalizing u with
  | _ k ih =>
    unfold gridStride
    by_cases hu : u < n
    · rw [dif_pos ⟨hu, hg⟩, List.mem_cons, ih (n - (u + g)) (by omega) (u + g) rfl]
      constructor
      · rintro (rfl | ⟨h1, h2, h3⟩)
        · exact ⟨hu, le_refl _, rfl⟩
        · exact ⟨h1, by omega, by simpa using h3⟩
      · rintro ⟨h1, h2, h3⟩
        by_cases e : v = u
        · exact Or.inl e
        · refine Or.inr ⟨h1, ?_, by simpa using h3⟩
          have h4 : (v - u) % g = 0 := Nat.sub_mod_eq_zero_of_mod_eq h3
          have h5 : g ≤ v - u := Nat.le_of_dvd (by omega) (Nat.dvd_of_mod_eq_zero h4)
          omega
    · rw [dif_neg (fun h => hu h.1)]
      constructor
      · intro h; cases h
      · rintro ⟨h1, h2, _⟩; omega

theorem nodup_gridStride {g n : Nat} (u : Nat) : (gridStride g n u).Nodup := by
  induction h : n - u using Nat.strong_induction_on generalizing u with
  | _ k ih =>
    unfold gridStride
    by_cases hu : u < n ∧ 0 < g
    · rw [dif_pos hu, List.nodup_cons]
      refine ⟨fun hm => ?_, ih (n - (u + g)) (by omega) (u + g) rfl⟩
      have := ((mem_gridStride hu.2 _ _).mp hm).2.1
      omega
    · rw [dif_neg hu]; exact List.nodup_nil

/-- The blocks of a grid share out the rows. -/
theorem gridStride_assignment {g : Nat} (hg : 0 < g) (n : Nat) :
    Assignment n (fun b : Fin g => gridStride g n b.val) where
  nodup b := nodup_gridStride _
  disjoint b b' hbb u hu hu' := by
    have h1 := ((mem_gridStride hg _ _).mp hu).2.2
    have h2 := ((mem_gridStride hg _ _).mp hu').2.2
    rw [Nat.mod_eq_of_lt b.2] at h1
    rw [Nat.mod_eq_of_lt b'.2] at h2
    exact hbb (Fin.ext (h1.symm.trans h2))
  covers u := by
    constructor
    · intro hu
      refine ⟨⟨u % g, Nat.mod_lt _ hg⟩, (mem_gridStride hg _ _).mpr ⟨hu, Nat.mod_le _ _, by simp⟩⟩
    · rintro ⟨b, hb⟩
      exact ((mem_gridStride hg _ _).mp hb).1

/-! ## Addresses -/

/-- The addresses of row `u` of a device matrix with `f` columns. -/
def rowCells (f u : Nat) : Set Nat := {a | u * f ≤ a ∧ a < (u + 1) * f}

theorem rowCells_disjoint (u v : Nat) (h : u ≠ v) : Disjoint (rowCells f u) (rowCells f v) := by
  rw [Set.disjoint_left]
  rintro a ⟨h1, h2⟩ ⟨h3, h4⟩
  rcases Nat.lt_or_gt_of_ne h with hlt | hlt
  · have : (u + 1) * f ≤ v * f := Nat.mul_le_mul_right _ hlt
    omega
  · have : (v + 1) * f ≤ u * f := Nat.mul_le_mul_right _ hlt
    omega

theorem mem_rowCells (u : Nat) (t : Fin f) : u * f + t.val ∈ rowCells f u := by
  refine ⟨by omega, ?_⟩
  have := t.2
  rw [Nat.succ_mul]; omega

theorem rowCells_cases {u a : Nat} (h : a ∈ rowCells f u) : ∃ t : Fin f, a = u * f + t.val := by
  obtain ⟨h1, h2⟩ := h
  rw [Nat.succ_mul] at h2
  exact ⟨⟨a - u * f, by omega⟩, by simp; omega⟩

/-! ## The row program -/

variable (d : DevCsr R) (Y G : Nat → R) (small : R)

/-- The matrix as the kernel reads it: column `t` of the stored array is row `t`. -/
def colMat (f : Nat) (G : Nat → R) : Mat f R := fun a b => G (b.val * f + a.val)

/-- The stored entries of a row as the kernel reads them. -/
def devEntries (f : Nat) (d : DevCsr R) (Y : Nat → R) (u : Nat) : List (Vec f R × R) :=
  (d.range u).map fun k => (entryFactor f d Y k, d.data k)

theorem block_local (steps u : Nat) :
    ∀ i ∈ blockRow f d steps u, LocalTo (blockAct (f := f) d Y G small) (rowCells f u) i := by
  have hload : LocalTo (blockAct (f := f) d Y G small) (rowCells f u) (.load u) := by
    refine ⟨fun s m a _ => rfl, fun s m m' hm => ⟨?_, fun a ha => hm a ha⟩⟩
    have : (fun t : Fin f => m (u * f + t.val)) = fun t : Fin f => m' (u * f + t.val) :=
      funext fun t => hm _ (mem_rowCells u t)
    simp only [blockAct, this]
  have hupd : ∀ (m m' : Nat → R), (∀ a ∈ rowCells f u, m a = m' a) → ∀ (t : Fin f) (v : R), ∀ a ∈ rowCells f u,
      Function.update m (u * f + t.val) v a = Function.update m' (u * f + t.val) v a := by
    intro m m' hm t v a ha
    by_cases h : a = u * f + t.val
    · subst h; simp
    · rw [Function.update_of_ne h, Function.update_of_ne h, hm a ha]
  have hzero : ∀ t, LocalTo (blockAct (f := f) d Y G small) (rowCells f u) (.zero u t) := by
    intro t
    refine ⟨fun s m a ha => ?_, fun s m m' hm => ⟨rfl, fun a ha => hupd m m' hm t 0 a ha⟩⟩
    exact Function.update_of_ne (fun e => ha (by rw [e]; exact mem_rowCells u t)) _ _
  have hstore : ∀ t, LocalTo (blockAct (f := f) d Y G small) (rowCells f u) (.store u t) := by
    intro t
    refine ⟨fun s m a ha => ?_, fun s m m' hm => ⟨rfl, fun a ha => ?_⟩⟩
    · show (if s.skip then m else Function.update m (u * f + t.val) (s.x t)) a = m a
      split
      · rfl
      · exact Function.update_of_ne (fun e => ha (by rw [e]; exact mem_rowCells u t)) _ _
    · show (if s.skip then m else Function.update m (u * f + t.val) (s.x t)) a =
        (if s.skip then m' else Function.update m' (u * f + t.val) (s.x t)) a
      split
      · exact hm a ha
      · exact hupd m m' hm t _ a ha
  have hresid : ∀ i, LocalTo (blockAct (f := f) d Y G small) (rowCells f u) (.resid u i) := by
    intro i
    refine ⟨fun s m a _ => rfl, fun s m m' hm => ⟨?_, fun a ha => hm a ha⟩⟩
    simp only [blockAct, hm _ (mem_rowCells u i)]
  have hinit : LocalTo (blockAct (f := f) d Y G small) (rowCells f u) .residInit :=
    localTo_pure (fun s => { s with r := fun _ => 0 }) (fun s m => rfl)
  have hre : ∀ k, LocalTo (blockAct (f := f) d Y G small) (rowCells f u) (.residEntry k) :=
    fun k => localTo_pure _ (fun s m => rfl)
  have hstart : LocalTo (blockAct (f := f) d Y G small) (rowCells f u) .start := localTo_pure _ (fun s m => rfl)
  have hapi : LocalTo (blockAct (f := f) d Y G small) (rowCells f u) .apInit := localTo_pure _ (fun s m => rfl)
  have hap : ∀ i, LocalTo (blockAct (f := f) d Y G small) (rowCells f u) (.ap i) :=
    fun i => localTo_pure _ (fun s m => rfl)
  have hape : ∀ k, LocalTo (blockAct (f := f) d Y G small) (rowCells f u) (.apEntry k) :=
    fun k => localTo_pure _ (fun s m => rfl)
  have hup : LocalTo (blockAct (f := f) d Y G small) (rowCells f u) .update := localTo_pure _ (fun s m => rfl)
  intro i hi
  unfold blockRow at hi
  split at hi
  · simp only [List.mem_append, List.mem_map, List.mem_singleton] at hi
    rcases hi with rfl | ⟨t, _, rfl⟩
    · exact hload
    · exact hzero t
  · simp only [List.mem_append, List.mem_map, List.mem_cons, List.not_mem_nil, or_false,
      List.mem_flatten, List.mem_replicate] at hi
    rcases hi with (((((rfl | rfl) | ⟨t, _, rfl⟩) | ⟨k, _, rfl⟩) | rfl) | ⟨l, ⟨_, rfl⟩, hi⟩) | ⟨t, _, rfl⟩
    · exact hload
    · exact hinit
    · exact hresid t
    · exact hre k
    · exact hstart
    · unfold blockRound at hi
      simp only [List.mem_append, List.mem_map, List.mem_singleton] at hi
      rcases hi with ((rfl | ⟨t, _, rfl⟩) | ⟨k, _, rfl⟩) | rfl
      · exact hapi
      · exact hap t
      · exact hape k
      · exact hup
    · exact hstore t

theorem block_run_zero (u : Nat) (ts : List (Fin f)) (s : BlockRegs f R) (m : Nat → R) (t : Fin f) :
    (runInstrs (blockAct d Y G small) (ts.map (.zero u)) s m).2 (u * f + t.val) =
      if t ∈ ts then 0 else m (u * f + t.val) := by
  induction ts generalizing m with
  | nil => simp [runInstrs]
  | cons k ts ih =>
    rw [List.map_cons]
    show (runInstrs (blockAct d Y G small) (ts.map (.zero u)) s
      (Function.update m (u * f + k.val) 0)).2 (u * f + t.val) = _
    rw [ih]
    by_cases h : t ∈ ts
    · simp [h]
    · by_cases hk : t = k
      · subst hk; simp [h]
      · have : u * f + t.val ≠ u * f + k.val := fun e => hk (Fin.ext (by omega))
        simp [h, hk, Function.update_of_ne this]

theorem block_run_store (u : Nat) (ts : List (Fin f)) (s : BlockRegs f R) (m : Nat → R) (t : Fin f) :
    (runInstrs (blockAct d Y G small) (ts.map (.store u)) s m).2 (u * f + t.val) =
      if s.skip = false ∧ t ∈ ts then s.x t else m (u * f + t.val) := by
  induction ts generalizing m with
  | nil => simp [runInstrs]
  | cons k ts ih =>
    rw [List.map_cons]
    show (runInstrs (blockAct d Y G small) (ts.map (.store u)) s
      (if s.skip then m else Function.update m (u * f + k.val) (s.x k))).2 (u * f + t.val) = _
    rw [ih]
    cases hs : s.skip with
    | true => simp
    | false =>
      by_cases h : t ∈ ts
      · simp [h]
      · by_cases hk : t = k
        · subst hk; simp [h]
        · have : u * f + t.val ≠ u * f + k.val := fun e => hk (Fin.ext (by omega))
          simp [h, hk, Function.update_of_ne this]

theorem block_run_resid (u : Nat) (ts : List (Fin f)) (s : BlockRegs f R) (m : Nat → R) :
    runInstrs (blockAct d Y G small) (ts.map (.resid u)) s m =
      ({ s with r := fun t => s.r t -
          (ts.map fun i => m (u * f + i.val) * G (i.val * f + t.val)).sum }, m) := by
  induction ts generalizing s with
  | nil => simp [runInstrs]
  | cons k ts ih =>
    rw [List.map_cons]
    show runInstrs (blockAct d Y G small) (ts.map (.resid u))
      { s with r := fun t => s.r t - m (u * f + k.val) * G (k.val * f + t.val) } m = _
    rw [ih]
    simp only [List.map_cons, List.sum_cons, sub_sub]

theorem sum_finRange (x : Vec f R) (t : Fin f) :
    ((List.finRange f).map fun i => x i * G (i.val * f + t.val)).sum = mulVec (colMat f G) x t := by
  show _ = ∑ i, colMat f G t i * x i
  rw [← List.sum_ofFn, List.ofFn_eq_map]
  congr 1
  exact List.map_congr_left fun i _ => mul_comm _ _

theorem block_run_residEntries (ks : List Nat) (s : BlockRegs f R) (m : Nat → R) :
    runInstrs (blockAct d Y G small) (ks.map .residEntry) s m =
      ({ s with r := (ks.map fun k => (entryFactor f d Y k, d.data k)).foldl (fun r e =>
          if 0 < e.2 then axpy (e.2 - (e.2 - 1) * dot e.1 s.x) e.1 r
          else axpy (0 - (-e.2 - 1) * dot e.1 s.x) e.1 r) s.r }, m) := by
  induction ks generalizing s with
  | nil => rfl
  | cons k ks ih =>
    rw [List.map_cons]
    show runInstrs (blockAct d Y G small) (ks.map .residEntry)
      (blockAct d Y G small (.residEntry k) s m).1 m = _
    rw [ih, List.map_cons, List.foldl_cons]
    have : (blockAct d Y G small (.residEntry k) s m).1.r =
        (if 0 < d.data k then axpy (d.data k - (d.data k - 1) * dot (entryFactor f d Y k) s.x)
            (entryFactor f d Y k) s.r
          else axpy (0 - (-d.data k - 1) * dot (entryFactor f d Y k) s.x) (entryFactor f d Y k) s.r) := by
      funext t
      show (if 0 < d.data k then _ else _) = _
      split
      · rfl
      · show _ = s.r t + _ * _
        ring
    rw [this]
    rfl

theorem block_run_ap (ts : List (Fin f)) (s : BlockRegs f R) (m : Nat → R)
    (hs : (s.skip || s.brk) = false) :
    runInstrs (blockAct d Y G small) (ts.map .ap) s m =
      ({ s with Ap := fun t => s.Ap t + (ts.map fun i => s.P i * G (i.val * f + t.val)).sum }, m) := by
  induction ts generalizing s with
  | nil => simp [runInstrs]
  | cons k ts ih =>
    rw [List.map_cons]
    have h1 : blockAct d Y G small (.ap k) s m =
        ({ s with Ap := fun t => s.Ap t + s.P k * G (k.val * f + t.val) }, m) := by
      simp [blockAct, hs]
    show runInstrs (blockAct d Y G small) (ts.map .ap) (blockAct d Y G small (.ap k) s m).1
      (blockAct d Y G small (.ap k) s m).2 = _
    rw [h1, ih { s with Ap := fun t => s.Ap t + s.P k * G (k.val * f + t.val) } (by exact hs)]
    simp only [List.map_cons, List.sum_cons, add_assoc]

theorem block_run_apEntries (ks : List Nat) (s : BlockRegs f R) (m : Nat → R)
    (hs : (s.skip || s.brk) = false) :
    runInstrs (blockAct d Y G small) (ks.map .apEntry) s m =
      ({ s with Ap := (ks.map fun k => (entryFactor f d Y k, d.data k)).foldl (fun v e =>
          axpy (((if e.2 < 0 then -e.2 else e.2) - 1) * dot e.1 s.p) e.1 v) s.Ap }, m) := by
  induction ks generalizing s with
  | nil => rfl
  | cons k ks ih =>
    rw [List.map_cons]
    set v : Vec f R := axpy (((if d.data k < 0 then -d.data k else d.data k) - 1) *
      dot (entryFactor f d Y k) s.p) (entryFactor f d Y k) s.Ap with hv
    have h1 : blockAct d Y G small (.apEntry k) s m = ({ s with Ap := v }, m) := by
      have : ∀ c : R, (if c < 0 then c * -1 else c) = if c < 0 then -c else c := by
        intro c; split
        · ring
        · rfl
      simp only [blockAct, hs, hv, this]
      rfl
    show runInstrs (blockAct d Y G small) (ks.map .apEntry) (blockAct d Y G small (.apEntry k) s m).1
      (blockAct d Y G small (.apEntry k) s m).2 = _
    rw [h1, ih { s with Ap := v } (by exact hs), List.map_cons, List.foldl_cons]

/-- After `continue` or `break` the rounds do nothing. -/
theorem block_run_stopped (u n : Nat) (s : BlockRegs f R) (hs : (s.skip || s.brk) = true) (m : Nat → R) :
    runInstrs (blockAct d Y G small) (List.replicate n (blockRound f d u)).flatten s m = (s, m) := by
  have key : ∀ is : List (BlockInstr f), (∀ i ∈ is, blockAct d Y G small i s m = (s, m)) →
      runInstrs (blockAct d Y G small) is s m = (s, m) := by
    intro is
    induction is with
    | nil => intro _; rfl
    | cons i is ih =>
      intro h
      unfold runInstrs
      rw [h i (by simp)]
      exact ih (fun j hj => h j (by simp [hj]))
  apply key
  intro i hi
  simp only [List.mem_flatten, List.mem_replicate] at hi
  obtain ⟨l, ⟨_, rfl⟩, hi⟩ := hi
  unfold blockRound at hi
  simp only [List.mem_append, List.mem_map, List.mem_singleton] at hi
  rcases hi with ((rfl | ⟨t, _, rfl⟩) | ⟨k, _, rfl⟩) | rfl <;> simp only [blockAct, hs, if_true]

/-- One round. -/
theorem block_run_round (u : Nat) (s : BlockRegs f R) (hs : s.skip = false) (hb : s.brk = false)
    (hP : s.P = s.p) (m : Nat → R) :
    let c := cgStep (cgApply (colMat f G) (devEntries f d Y u)) ⟨s.x, s.r, s.p, s.rsold⟩
    let res := runInstrs (blockAct d Y G small) (blockRound f d u) s m
    res.2 = m ∧ res.1.x = c.x ∧ res.1.skip = false ∧ res.1.brk = decide (c.rsold < small) ∧
      (res.1.brk = false → res.1.r = c.r ∧ res.1.p = c.p ∧ res.1.P = c.p ∧ res.1.rsold = c.rsold) := by
  intro c res
  have hsb : (s.skip || s.brk) = false := by rw [hs, hb]; rfl
  have h1 : runInstrs (blockAct d Y G small) [BlockInstr.apInit] s m =
      ({ s with Ap := fun _ => 0 }, m) := by
    simp [runInstrs, blockAct, hsb]
  have h2 : runInstrs (blockAct d Y G small)
      ([BlockInstr.apInit] ++ (List.finRange f).map .ap ++ (d.range u).map .apEntry) s m =
      ({ s with Ap := cgApply (colMat f G) (devEntries f d Y u) s.p }, m) := by
    rw [run_append, run_append, h1,
      block_run_ap d Y G small _ { s with Ap := fun _ => 0 } m (by exact hsb)]
    have hsum : (fun t : Fin f => (fun _ : Fin f => (0 : R)) t +
        ((List.finRange f).map fun i => s.P i * G (i.val * f + t.val)).sum) =
        mulVec (colMat f G) s.p := by
      funext t
      rw [sum_finRange, hP]; simp
    simp only [hsum]
    rw [block_run_apEntries d Y G small _ { s with Ap := mulVec (colMat f G) s.p } m (by exact hsb)]
    rfl
  have h3 : res = blockAct d Y G small .update
      { s with Ap := cgApply (colMat f G) (devEntries f d Y u) s.p } m := by
    show runInstrs (blockAct d Y G small) (blockRound f d u) s m = _
    unfold blockRound
    rw [run_append, h2]
    rfl
  have hx : c.x = fun t => s.x t + s.rsold / dot s.p (cgApply (colMat f G) (devEntries f d Y u) s.p) * s.p t :=
    rfl
  have hr : c.r = fun t => s.r t - s.rsold / dot s.p (cgApply (colMat f G) (devEntries f d Y u) s.p) *
      cgApply (colMat f G) (devEntries f d Y u) s.p t := by
    funext t
    show s.r t + _ * -1 * _ = _
    ring
  have hrs : c.rsold = dot c.r c.r := rfl
  have hp : c.p = fun t => c.r t + c.rsold / s.rsold * s.p t := by
    funext t
    show _ + 1 * _ = _
    rw [one_mul, add_comm]
    rfl
  have h4 : res = (if c.rsold < small then
        { s with Ap := cgApply (colMat f G) (devEntries f d Y u) s.p, x := c.x, r := c.r, brk := true }
      else { s with Ap := cgApply (colMat f G) (devEntries f d Y u) s.p, x := c.x, r := c.r, p := c.p,
                    P := c.p, rsold := c.rsold }, m) := by
    rw [h3]
    simp only [blockAct, hsb, hp, hrs, hx, hr]
    rfl
  rw [h4]
  refine ⟨rfl, ?_, ?_, ?_, ?_⟩
  · split <;> rfl
  · split <;> exact hs
  · split
    · rename_i hc; exact (decide_eq_true hc).symm
    · rename_i hc; rw [decide_eq_false hc]; exact hb
  · split
    · intro h; exact absurd h (by simp)
    · intro _; exact ⟨rfl, rfl, rfl, rfl⟩

theorem block_run_rounds (u n : Nat) (s : BlockRegs f R) (hs : s.skip = false) (hb : s.brk = false)
    (hP : s.P = s.p) (m : Nat → R) :
    let res := runInstrs (blockAct d Y G small) (List.replicate n (blockRound f d u)).flatten s m
    res.2 = m ∧ res.1.skip = false ∧
      res.1.x = cgLoop (cgApply (colMat f G) (devEntries f d Y u)) small n ⟨s.x, s.r, s.p, s.rsold⟩ := by
  induction n generalizing s with
  | zero => exact ⟨rfl, hs, rfl⟩
  | succ n ih =>
    intro res
    obtain ⟨h1, h2, h3, h4, h5⟩ := block_run_round d Y G small u s hs hb hP m
    have hres : res = runInstrs (blockAct d Y G small) (List.replicate n (blockRound f d u)).flatten
        (runInstrs (blockAct d Y G small) (blockRound f d u) s m).1 m := by
      show runInstrs _ _ _ _ = _
      rw [List.replicate_succ, List.flatten_cons, run_append, h1]
    unfold cgLoop
    by_cases hc : (cgStep (cgApply (colMat f G) (devEntries f d Y u)) ⟨s.x, s.r, s.p, s.rsold⟩).rsold < small
    · rw [block_run_stopped d Y G small u n _ (by rw [h4]; simp [hc])] at hres
      rw [hres]
      refine ⟨rfl, h3, ?_⟩
      simp only [hc, if_true]
      exact h2
    · have hbf : (runInstrs (blockAct d Y G small) (blockRound f d u) s m).1.brk = false := by
        rw [h4]; simp [hc]
      obtain ⟨e1, e2, e3, e4⟩ := h5 hbf
      obtain ⟨i1, i2, i3⟩ := ih _ h3 hbf (by rw [e2, e3])
      rw [hres]
      refine ⟨i1, i2, ?_⟩
      simp only [hc, if_false]
      rw [i3, h2, e1, e2, e4]

/-- What the program of a row computes. -/
def blockResult (f : Nat) (d : DevCsr R) (Y G : Nat → R) (small : R) (steps u : Nat) (x : Vec f R) : Vec f R :=
  if d.indptr u = d.indptr (u + 1) then fun _ => 0
  else cgSolve (colMat f G) small steps (devEntries f d Y u) x

/-- What the program of a row leaves in the row. -/
theorem block_effect (steps u : Nat) (s : BlockRegs f R) (m : Nat → R) (t : Fin f) :
    (runInstrs (blockAct d Y G small) (blockRow f d steps u) s m).2 (u * f + t.val) =
      blockResult f d Y G small steps u (fun t => m (u * f + t.val)) t := by
  unfold blockRow blockResult
  by_cases he : d.indptr u = d.indptr (u + 1)
  · rw [if_pos he, if_pos he, run_append, block_run_zero]
    simp
  · rw [if_neg he, if_neg he]
    set x : Vec f R := fun t => m (u * f + t.val) with hx
    set r := cgResidual (colMat f G) (devEntries f d Y u) x with hr
    have h1 : runInstrs (blockAct d Y G small) ([BlockInstr.load u, .residInit] ++
        (List.finRange f).map (.resid u) ++ (d.range u).map .residEntry ++ [.start]) s m =
        ({ s with x := x, r := r, p := r, P := r, rsold := dot r r, skip := decide (dot r r < small),
                  brk := false }, m) := by
      rw [run_append, run_append, run_append]
      have e0 : runInstrs (blockAct d Y G small) [BlockInstr.load u, .residInit] s m =
          ({ s with x := x, r := fun _ => 0, skip := false, brk := false }, m) := rfl
      rw [e0, block_run_resid]
      have e1 : (fun t : Fin f => (fun _ : Fin f => (0 : R)) t -
          ((List.finRange f).map fun i => m (u * f + i.val) * G (i.val * f + t.val)).sum) =
          fun a => -1 * mulVec (colMat f G) x a := by
        funext t
        rw [show ((List.finRange f).map fun i => m (u * f + i.val) * G (i.val * f + t.val)).sum =
          mulVec (colMat f G) x t from sum_finRange G x t]
        ring
      simp only [e1]
      rw [block_run_residEntries]
      rfl
    rw [run_append, run_append, h1, block_run_store]
    unfold cgSolve
    simp only [← hr]
    by_cases hc : dot r r < small
    · rw [block_run_stopped d Y G small u steps _ (by simp [hc])]
      simp [hc, hx]
    · obtain ⟨i1, i2, i3⟩ := block_run_rounds d Y G small u steps
        { s with x := x, r := r, p := r, P := r, rsold := dot r r, skip := decide (dot r r < small),
                 brk := false } (by simp [hc]) rfl rfl m
      rw [i2, i3]
      simp [hc]

theorem block_taskSpec (steps : Nat) :
    TaskSpec (blockAct (f := f) d Y G small) (fun u => blockRow f d steps u) (rowCells f) (fun _ => True)
      (fun u m a => if h : a - u * f < f then
        blockResult f d Y G small steps u (fun t => m (u * f + t.val)) ⟨a - u * f, h⟩
        else m a) where
  disjoint := rowCells_disjoint
  localTo u := block_local d Y G small steps u
  effect u s m _ := by
    refine ⟨trivial, ?_⟩
    intro a ha
    obtain ⟨t, rfl⟩ := rowCells_cases ha
    have : u * f + t.val - u * f = t.val := by omega
    rw [dif_pos (by rw [this]; exact t.2)]
    rw [block_effect d Y G small steps u s m t]
    congr 1
    exact Fin.ext this.symm
  depends u m m' hm a ha := by
    have : (fun t : Fin f => m (u * f + t.val)) = fun t : Fin f => m' (u * f + t.val) :=
      funext fun t => hm _ (mem_rowCells u t)
    simp only [this, hm a ha]

/-! ## The Gram matrix -/

theorem l2_spec (f : Nat) (reg : R) (ts : List Nat) (hts : ts.Nodup) (G : Nat → R) (a : Nat) :
    l2Regularize f reg ts G a = G a + if ∃ t ∈ ts, a = t * f + t then reg else 0 := by
  unfold l2Regularize
  induction ts generalizing G with
  | nil => simp
  | cons k ts ih =>
    rw [List.nodup_cons] at hts
    rw [List.foldl_cons, ih hts.2]
    by_cases ha : a = k * f + k
    · subst ha
      have hno : ¬ ∃ t ∈ ts, k * f + k = t * f + t := by
        rintro ⟨t, ht, e⟩
        have : k * (f + 1) = t * (f + 1) := by rw [Nat.mul_succ, Nat.mul_succ]; exact e
        have := Nat.eq_of_mul_eq_mul_right (Nat.succ_pos f) this
        exact hts.1 (this ▸ ht)
      rw [if_neg hno, if_pos ⟨k, by simp, rfl⟩]
      simp
    · rw [Function.update_of_ne ha]
      congr 1
      simp [ha]

theorem deviceYtY_spec {Ys : List (Vec f R)} {Ym old : Nat → R} (hY : Spec.HoldsRows Ym Ys) (reg : R)
    {ts : List Nat} (hts : ts.Perm (List.range f)) (a b : Fin f) :
    deviceYtY f Ys.length reg ts Ym old (b.val * f + a.val) = regularised (gram Ys) reg a b := by
  unfold deviceYtY
  have hf : 0 < f := Fin.pos a
  have hmod : (b.val * f + a.val) % f = a.val := by
    rw [Nat.add_comm, Nat.add_mul_mod_self_right, Nat.mod_eq_of_lt a.2]
  have hdiv : (b.val * f + a.val) / f = b.val := by
    rw [Nat.add_comm, Nat.add_mul_div_right _ _ hf, Nat.div_eq_of_lt a.2, Nat.zero_add]
  rw [l2_spec f reg ts (hts.nodup_iff.mpr List.nodup_range)]
  have h1 : gemmNT f f Ys.length Ym f Ym f old f (b.val * f + a.val) = gram Ys a b := by
    unfold gemmNT gram
    rw [hmod, hdiv, if_pos ⟨a.2, b.2⟩]
    congr 1
    refine List.ext_getElem (by simp) fun l h1 h2 => ?_
    simp only [List.getElem_map, List.getElem_range]
    have hl : l < Ys.length := by simpa using h2
    have := hY l Ys[l] (List.getElem?_eq_getElem hl)
    rw [Nat.add_comm a.val, Nat.add_comm b.val, this a, this b]
  rw [h1]
  show _ = gram Ys a b + reg * (if a = b then 1 else 0)
  rw [mul_ite, mul_one, mul_zero]
  congr 1
  have : (∃ t ∈ ts, b.val * f + a.val = t * f + t) ↔ a = b := by
    constructor
    · rintro ⟨t, ht, e⟩
      have htf : t < f := by simpa using (hts.mem_iff.mp ht)
      have e1 : (t * f + t) % f = t := by
        rw [Nat.add_comm, Nat.add_mul_mod_self_right, Nat.mod_eq_of_lt htf]
      have e2 : (t * f + t) / f = t := by
        rw [Nat.add_comm, Nat.add_mul_div_right _ _ hf, Nat.div_eq_of_lt htf, Nat.zero_add]
      rw [← e, hmod] at e1
      rw [← e, hdiv] at e2
      exact Fin.ext (e1.trans e2.symm)
    · rintro rfl
      exact ⟨a.val, hts.mem_iff.mpr (by simp), rfl⟩
  simp only [this]

/-! ## Reading the sparse matrix -/

theorem devEntries_eq {C : SpRows R} {Ys : List (Vec f R)} {d : DevCsr R} {Ym : Nat → R}
    (hd : Spec.HoldsCsr d.indptr d.indices d.data C) (hY : Spec.HoldsRows Ym Ys) {u : Nat}
    {row : List (Nat × R)} (hu : C[u]? = some row) {err : Err} {es : List (Vec f R × R)}
    (hes : rowEntries err Ys row = .ok es) : devEntries f d Ym u = es := by
  obtain ⟨hb, rfl⟩ := rowEntries_ok_iff hes
  obtain ⟨hlen, hent⟩ := hd u row hu
  unfold devEntries DevCsr.range
  rw [hlen, Nat.add_sub_cancel_left]
  refine List.ext_getElem (by simp) fun k h1 h2 => ?_
  have hk : k < row.length := by simpa using h2
  simp only [List.getElem_map, List.getElem_range', one_mul]
  obtain ⟨e1, e2⟩ := hent k row[k] (List.getElem?_eq_getElem hk)
  have hi : row[k].1 < Ys.length := hb _ (List.getElem_mem hk)
  refine Prod.ext (funext fun t => ?_) e2
  show Ym (d.indices (d.indptr u + k) * f + t.val) = (Ys[row[k].1]?.getD 0) t
  rw [e1, hY _ _ (List.getElem?_eq_getElem hi) t, List.getElem?_eq_getElem hi]
  rfl

end Implicit
