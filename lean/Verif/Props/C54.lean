import Verif.Lemmas.GpuKernel
import Verif.Lemmas.Transpose
import Verif.Model.GpuALS
import Verif.Props.C13
import Verif.Props.C14
import Verif.Props.C16

/-!
# C54 — GPU training computes what CPU training computes

The kernels are run on flat device arrays by any number of blocks, interleaved in any way.  Partial: exact
arithmetic, the threads of a block in lock step with `dot` returning the sum over the threads.  C52 says
when `dot` does so; with more than 32 factors it can fail because of a race.
-/

set_option linter.unusedSectionVars false

namespace Implicit

open Spec (HoldsRows HoldsCsr ValidRow)

variable {R : Type} [LinearOrder R] [Field R] {f : Nat}

/-- **C54** (Gram matrix).  Whatever the output array held before and in whatever order the threads of the
regularisation kernel run, `calculate_yty` leaves `Y^T Y + reg I` in it. -/
theorem C54_gram {Y : List (Vec f R)} {Ym : Nat → R} (hY : HoldsRows Ym Y) (reg : R) {ts : List Nat}
    (hts : ts.Perm (List.range f)) (old : Nat → R) (a b : Fin f) :
    deviceYtY f Y.length reg ts Ym old (a.val * f + b.val) =
      (Y.map fun y => y a * y b).sum + if a = b then reg else 0 := by
  rw [deviceYtY_spec hY reg hts b a]
  show gram Y b a + reg * (if b = a then 1 else 0) = _
  rw [gram_symm Y b a, mul_ite, mul_one, mul_zero]
  simp only [eq_comm]
  rfl

theorem gpuLeastSquares_ok {tol : R} {steps : Nat} {G : Mat f R} {cols : Nat} {C : SpRows R}
    {X Y X' : List (Vec f R)} (h : gpuLeastSquares tol steps G cols C X Y = .ok X') :
    X'.length = X.length ∧ ∀ (u : Nat) x, X[u]? = some x → ∃ row x', C[u]? = some row ∧
      cgRow G tol steps Y row x = .ok x' ∧ X'[u]? = some x' := by
  unfold gpuLeastSquares at h
  split at h
  · cases h
  split at h
  · cases h
  obtain ⟨hlen, hrow⟩ := mapM_ok_iff h
  refine ⟨by simpa using hlen, fun u x hx => ?_⟩
  obtain ⟨x', hx', hx''⟩ := hrow u (x, u) (by simp [hx])
  simp only at hx'
  cases hC : C[u]? with
  | none => rw [hC] at hx'; cases hx'
  | some row => rw [hC] at hx'; exact ⟨row, x', rfl, hx', hx''⟩

/-- **C54** (`least_squares`).  When the row-wise solver of the CPU model returns `X'`, every execution of
the kernel leaves `X'` in the array, and nothing beyond the last row is written. -/
theorem C54_least_squares_partial {small reg : R} {steps cols : Nat} {C : SpRows R} {X Y X' : List (Vec f R)}
    (h : gpuLeastSquares small steps (regularised (gram Y) reg) cols C X Y = .ok X')
    {d : DevCsr R} (hd : HoldsCsr d.indptr d.indices d.data C) {grid : Nat} (hg : 0 < grid)
    {Xm Ym Xm' : Nat → R} (hX : HoldsRows Xm X) (hY : HoldsRows Ym Y)
    (hs : DevSweep f d small reg steps grid X.length Y.length Xm Ym Xm') :
    HoldsRows Xm' X' ∧ ∀ a, X.length * f ≤ a → Xm' a = Xm a := by
  obtain ⟨ts, old, w, σ, hts, hw, rfl⟩ := hs
  obtain ⟨hlen, hrow⟩ := gpuLeastSquares_ok h
  have hq := gridStride_assignment hg X.length
  set G := deviceYtY f Y.length reg ts Ym old with hG
  have hmat : colMat f G = regularised (gram Y) reg := by
    funext a b
    exact deviceYtY_spec hY reg hts a b
  obtain ⟨h1, h2⟩ := parallel_for (block_taskSpec (f := f) d Ym G small steps)
    (fun b : Fin grid => gridStride grid X.length b.val) hq.nodup hq.disjoint w hw σ
    (fun _ => trivial) Xm
  constructor
  · intro u x' hx' t
    have hu : u < X.length := by rw [← hlen]; exact (List.getElem?_eq_some_iff.mp hx').1
    obtain ⟨b, hb⟩ := (hq.covers u).mp hu
    rw [h1 b u hb _ (mem_rowCells u t)]
    have hsub : u * f + t.val - u * f = t.val := by omega
    rw [dif_pos (by rw [hsub]; exact t.2)]
    obtain ⟨row, x'', hC, hcg, hx''⟩ := hrow u X[u] (List.getElem?_eq_getElem hu)
    rw [hx'] at hx''; cases hx''
    have hxu : (fun t : Fin f => Xm (u * f + t.val)) = X[u] :=
      funext fun t => hX u X[u] (List.getElem?_eq_getElem hu) t
    have hres : blockResult f d Ym G small steps u X[u] = x' := by
      unfold blockResult
      rw [hmat]
      have hip := (hd u row hC).1
      unfold cgRow at hcg
      cases row with
      | nil =>
        rw [if_pos (by simpa using hip.symm)]
        simpa using hcg
      | cons e row =>
        rw [if_neg (by rw [hip]; simp)]
        simp only [List.isEmpty_cons, Bool.false_eq_true, if_false] at hcg
        cases he : rowEntries .undefinedBehaviour Y (e :: row) with
        | error e' => rw [he] at hcg; cases hcg
        | ok es =>
          rw [he] at hcg
          cases hcg
          rw [devEntries_eq hd hY hC he]
    rw [hxu, hres]
    congr 1
    exact Fin.ext hsub
  · intro a ha
    refine h2 a fun b u hu hmem => ?_
    have hlt : u < X.length := (hq.covers u).mpr ⟨b, hu⟩
    have : (u + 1) * f ≤ X.length * f := Nat.mul_le_mul_right _ hlt
    have := hmem.2
    omega

/-- The GPU solver of a sweep is the native CG solver of the CPU, up to its dimension checks. -/
theorem C54_solver {tol : R} {steps cols : Nat} {C : SpRows R} {X Y : List (Vec f R)} {reg : R}
    (hC : C.length ≤ X.length) (hcols : cols ≤ Y.length) :
    gpuLeastSquares tol steps (regularised (gram Y) reg) cols C X Y = leastSquaresCG tol steps C X Y reg := by
  unfold gpuLeastSquares
  rw [if_neg (by omega), if_neg (by omega)]
  rfl

/-- Parameters of a CPU model that trains as the GPU model with parameters `p` does. -/
def cpuParams (p : GpuALSParams R) : ALSParams R :=
  ⟨p.regularization, 1, true, true, p.cgSteps, p.iterations⟩

theorem leastSquaresCG_length {tol : R} {steps : Nat} {C : SpRows R} {X Y X' : List (Vec f R)} {reg : R}
    (h : leastSquaresCG tol steps C X Y reg = .ok X') : X'.length = X.length := by
  simpa using (mapM_ok_iff h).1

theorem gpuIterations_trace {tol : R} {p : GpuALSParams R} {C : SpRows R} {S : Solver f R} :
    ∀ (n : Nat) (m : Factors f R), C.length = m.user.length →
    gpuIterations tol p C.length m.item.length C (transposeRows m.item.length C) n m =
      (alsTrace (alsSolver S tol (cpuParams p)) C (transposeRows m.item.length C) p.regularization n m).map
        fun trace => trace.getLast?.getD m := by
  intro n
  induction n with
  | zero => intro m _; rfl
  | succ n ih =>
    intro m hC
    unfold gpuIterations alsTrace gpuIteration alsIteration
    have hsol : alsSolver S tol (cpuParams p) = leastSquaresCG tol p.cgSteps := rfl
    simp only [hsol]
    rw [C54_solver (by omega) (le_refl _)]
    simp only [bind, Except.bind, pure, Except.pure]
    cases h1 : leastSquaresCG tol p.cgSteps C m.user m.item p.regularization with
    | error e => rfl
    | ok X =>
      have hlX := leastSquaresCG_length h1
      simp only
      rw [C54_solver (by rw [transpose_length]) (by omega)]
      cases h2 : leastSquaresCG tol p.cgSteps (transposeRows m.item.length C) m.item X p.regularization with
      | error e => rfl
      | ok Y =>
        have hlY := leastSquaresCG_length h2
        simp only
        have := ih ⟨X, Y⟩ (by simp only; omega)
        simp only [hlY, hsol] at this
        rw [this]
        cases alsTrace (leastSquaresCG tol p.cgSteps) C (transposeRows m.item.length C) p.regularization n
          ⟨X, Y⟩ with
        | error e => rfl
        | ok tr =>
          cases tr with
          | nil => rfl
          | cons a tr => simp [Except.map, List.getLast?_cons]

/-- **C54** (model level).  Up to `alpha`, which it ignores (C20), GPU training is CPU training with the
native conjugate gradient solver. -/
theorem C54_fit (S : Solver f R) (tol : R) (p : GpuALSParams R) (C : SpRows R) (m : Factors f R)
    (hC : C.length = m.user.length) :
    gpuAlsFit tol p m.item.length C m = alsFit S tol (cpuParams p) m.item.length C m := by
  unfold gpuAlsFit alsFit
  have ha : applyAlpha (cpuParams p).alpha C = C := by simp [applyAlpha, cpuParams]
  simp only [ha]
  rw [gpuIterations_trace (S := S) p.iterations m hC]
  rfl

theorem devTrain_holds {small : R} {p : GpuALSParams R} {users items : Nat} {Cui Ciu : SpRows R}
    {dui diu : DevCsr R} (hdui : HoldsCsr dui.indptr dui.indices dui.data Cui)
    (hdiu : HoldsCsr diu.indptr diu.indices diu.data Ciu) {grid : Nat} (hg : 0 < grid)
    {n : Nat} {Xm Ym Xm' Ym' : Nat → R}
    (hrun : DevTrain f dui diu small p.regularization p.cgSteps grid users items n Xm Ym Xm' Ym') :
    ∀ (m m' : Factors f R), m.user.length = users → m.item.length = items →
      gpuIterations small p users items Cui Ciu n m = .ok m' → HoldsRows Xm m.user → HoldsRows Ym m.item →
      HoldsRows Xm' m'.user ∧ HoldsRows Ym' m'.item := by
  induction hrun with
  | zero X Y =>
    intro m m' _ _ h hX hY
    cases h
    exact ⟨hX, hY⟩
  | @succ n X Y X' Y' X'' Y'' h1 h2 _ ih =>
    intro m m' hu hi h hX hY
    unfold gpuIterations gpuIteration at h
    simp only [bind, Except.bind, pure, Except.pure] at h
    cases e1 : gpuLeastSquares small p.cgSteps (regularised (gram m.item) p.regularization) items Cui m.user
        m.item with
    | error e => rw [e1] at h; cases h
    | ok Xl =>
      rw [e1] at h
      simp only at h
      have hlX := (gpuLeastSquares_ok e1).1
      cases e2 : gpuLeastSquares small p.cgSteps (regularised (gram Xl) p.regularization) users Ciu m.item
          Xl with
      | error e => rw [e2] at h; cases h
      | ok Yl =>
        rw [e2] at h
        simp only at h
        have hlY := (gpuLeastSquares_ok e2).1
        rw [← hu, ← hi] at h1
        have hX' := (C54_least_squares_partial e1 hdui hg hX hY h1).1
        rw [← hu, ← hi, ← hlX] at h2
        have hY' := (C54_least_squares_partial e2 hdiu hg hY hX' h2).1
        exact ih ⟨Xl, Yl⟩ m' (by simp only; omega) (by simp only; omega) h hX' hY'

/-- **C54** (training).  The data of the right shape and `reg > 0`: CPU training with the native conjugate
gradient solver returns factors, and every execution of the GPU kernels, from arrays holding the same
initial factors, ends with arrays holding the same final factors. -/
theorem C54_training_partial [IsStrictOrderedRing R] (S : Solver f R) (small : R) (p : GpuALSParams R)
    (hreg : 0 < p.regularization) (C : SpRows R) (m : Factors f R) (hC : C.length = m.user.length)
    (hv : ∀ row ∈ C, ValidRow m.item.length row)
    {dui diu : DevCsr R} (hdui : HoldsCsr dui.indptr dui.indices dui.data C)
    (hdiu : HoldsCsr diu.indptr diu.indices diu.data (transposeRows m.item.length C))
    {grid : Nat} (hg : 0 < grid) {Xm Ym : Nat → R} (hX : HoldsRows Xm m.user) (hY : HoldsRows Ym m.item) :
    ∃ m', alsFit S small (cpuParams p) m.item.length C m = .ok m' ∧
      Spec.objective C m'.user m'.item p.regularization ≤ Spec.objective C m.user m.item p.regularization ∧
      ∀ Xm' Ym', DevTrain f dui diu small p.regularization p.cgSteps grid m.user.length m.item.length
        p.iterations Xm Ym Xm' Ym' → HoldsRows Xm' m'.user ∧ HoldsRows Ym' m'.item := by
  obtain ⟨trace, et, hlen, hpw, hsh⟩ := C13_training S small (cpuParams p) hreg C p.iterations m hC hv
  have ha : applyAlpha (cpuParams p).alpha C = C := by simp [applyAlpha, cpuParams]
  have hfit : alsFit S small (cpuParams p) m.item.length C m = .ok (trace.getLast?.getD m) := by
    unfold alsFit
    simp only [ha]
    have : alsTrace (alsSolver S small (cpuParams p)) C (transposeRows m.item.length C)
      (cpuParams p).regularization (cpuParams p).iterations m = .ok trace := et
    rw [this]
    rfl
  refine ⟨_, hfit, ?_, fun Xm' Ym' hrun => ?_⟩
  · cases hl : trace.getLast? with
    | none => exact le_refl _
    | some b => exact (List.pairwise_cons.mp hpw).1 b (List.mem_of_getLast? hl)
  · refine devTrain_holds hdui hdiu hg hrun m _ rfl rfl ?_ hX hY
    rw [← hfit, ← C54_fit S small p C m hC]
    unfold gpuAlsFit
    rw [hC]

/-- **C54** (recalculating a row).  `recalculate_user` and `recalculate_item` start from zero and take as
many steps as there are factors: the rows returned have a residual below the tolerance, and are no worse
than zero. -/
theorem C54_recalculate [IsStrictOrderedRing R] {tol : R} (htol : 0 < tol) (p : GpuALSParams R)
    (hreg : 0 < p.regularization) (Y : List (Vec f R)) (rows : SpRows R)
    (hv : ∀ row ∈ rows, ValidRow Y.length row) :
    ∃ X, gpuRecalculateUser tol p (regularised (gram Y) p.regularization) Y rows.length Y.length rows = .ok X ∧
      X.length = rows.length ∧ ∀ (u : Nat) row x, (applyAlpha p.alpha rows)[u]? = some row → X[u]? = some x →
        ∑ j, Spec.residual Y row p.regularization x j ^ 2 < tol ∧
        Spec.rowLoss Y row p.regularization x ≤ Spec.rowLoss Y row p.regularization 0 := by
  have hal : (applyAlpha p.alpha rows).length = rows.length := by
    unfold applyAlpha scaleRows; split <;> simp
  have hv' : ∀ row ∈ applyAlpha p.alpha rows, ValidRow Y.length row := by
    unfold applyAlpha
    split
    · intro row hrow
      obtain ⟨r, hr, rfl⟩ := List.mem_map.mp hrow
      have h := hv r hr
      refine ⟨?_, ?_⟩
      · have : (r.map fun e => (e.1, p.alpha * e.2)).map Prod.fst = r.map Prod.fst := by
          rw [List.map_map]; rfl
        rw [this]; exact h.nodup
      · intro e he
        obtain ⟨e', he', rfl⟩ := List.mem_map.mp he
        exact h.lt e' he'
    · exact hv
  unfold gpuRecalculateUser
  rw [C54_solver (by simp [hal]) (le_refl _)]
  obtain ⟨X, hX, hlen, -⟩ := nonWorsening_of_rows
      (solver := leastSquaresCG tol f) .undefinedBehaviour
      (fun Y row x => cgRow (regularised (gram Y) p.regularization) tol f Y row x) (fun _ _ _ => rfl)
      (fun Y row h x => C14_cg_row Y row h hreg tol f x)
      (applyAlpha p.alpha rows) (List.replicate rows.length fun _ => (0 : R)) Y (by simp [hal]) hv'
  refine ⟨X, hX, by simpa using hlen, fun u row x hrow hx => ?_⟩
  have hu : u < rows.length := by rw [← hal]; exact (List.getElem?_eq_some_iff.mp hrow).1
  obtain ⟨_, hr⟩ := mapM_ok_iff hX
  obtain ⟨x', hx', hx''⟩ := hr u (fun _ => 0, u) (by simp [hu])
  rw [hx] at hx''; cases hx''
  simp only [hrow] at hx'
  have hvr := hv' row (List.mem_of_getElem? hrow)
  refine ⟨?_, ?_⟩
  · cases row with
    | nil =>
      have : x = fun _ => 0 := by
        have h1 : (Except.ok (fun _ => 0) : Except Err (Vec f R)) = .ok x := hx'
        cases h1; rfl
      subst this
      have : ∀ j, Spec.residual Y [] p.regularization (fun _ => (0 : R)) j = 0 := by
        intro j
        simp [Spec.residual, Spec.preference]
      simp [this, htol]
    | cons e row =>
      unfold cgRow at hx'
      rw [rowEntries_eq hvr.lt] at hx'
      have hxe : x = cgSolve (regularised (gram Y) p.regularization) tol f (entriesOf Y (e :: row)) fun _ => 0 := by
        cases hx'; rfl
      rw [hxe]
      exact (C14_cg_converges Y (e :: row) hvr hreg htol f (le_refl _) _).1
  · obtain ⟨x', h1, h2⟩ := C14_cg_row Y row hvr hreg tol f (fun _ => 0)
    rw [h1] at hx'
    cases hx'
    exact h2

/-! ## The loss -/

theorem lossUser_eq (d : DevCsr R) (X Y G : Nat → R) (s : LossRegs R) (u : Nat) :
    lossUser f d X Y G s u =
      { s with
        loss := s.loss + (lossRow (colMat f G) (devEntries f d Y u) fun t => X (u * f + t.val)).2
        conf := s.conf + (lossRow (colMat f G) (devEntries f d Y u) fun t => X (u * f + t.val)).1
        userNorm := s.userNorm + dot (fun t : Fin f => X (u * f + t.val)) fun t => X (u * f + t.val) } := by
  unfold lossUser
  set x : Vec f R := fun t => X (u * f + t.val) with hx
  have h0 : (List.finRange f).foldl (fun (r : Vec f R) i => fun t => r t + x i * G (i.val * f + t.val))
      (fun _ => 0) = mulVec (colMat f G) x := by
    have : ∀ (ts : List (Fin f)) (r : Vec f R), ts.foldl
        (fun (r : Vec f R) i => fun t => r t + x i * G (i.val * f + t.val)) r =
        fun t => r t + (ts.map fun i => x i * G (i.val * f + t.val)).sum := by
      intro ts
      induction ts with
      | nil => intro r; simp
      | cons i ts ih => intro r; rw [List.foldl_cons, ih]; simp [add_assoc]
    rw [this]
    funext t
    rw [sum_finRange]; simp
  have h1 : ∀ (ks : List Nat) (a : Vec f R) (l c l0 c0 : R),
      ks.foldl (fun (a : Vec f R × R × R) index =>
        let Yi : Vec f R := entryFactor f d Y index
        let c := d.data index
        if 0 < c then
          (fun t => a.1 t + ((c - 1) * dot Yi x - 2 * c) * Yi t, a.2.1 + c, a.2.2 + c)
        else
          (fun t => a.1 t + ((c * -1 - 1) * dot Yi x) * Yi t, a.2.1 + c * -1, a.2.2 + c * -1))
        (a, l0 + l, c0 + c) =
      (let r := (ks.map fun k => (entryFactor f d Y k, d.data k)).foldl (lossStep x) (a, c, l)
       (r.1, l0 + r.2.2, c0 + r.2.1)) := by
    intro ks
    induction ks with
    | nil => intros; rfl
    | cons k ks ih =>
      intro a l c l0 c0
      rw [List.foldl_cons, List.map_cons, List.foldl_cons]
      by_cases hk : 0 < d.data k
      · simp only [hk, if_true, lossStep]
        rw [add_assoc l0, add_assoc c0, ← ih]
        congr 2
        funext t
        show _ = a t + _ * _
        ring
      · simp only [hk, if_false, lossStep]
        rw [add_assoc l0, add_assoc c0, mul_neg_one, ← ih]
        congr 2
        funext t
        show _ = a t + _ * _
        ring
  have h2 := h1 (d.range u) (mulVec (colMat f G) x) 0 0 s.loss s.conf
  simp only [add_zero] at h2
  simp only [h0]
  rw [h2]
  unfold lossRow devEntries
  simp only
  rw [dot_comm x, add_assoc]

theorem foldl_lossUser (d : DevCsr R) (X Y G : Nat → R) (us : List Nat) (s : LossRegs R) :
    us.foldl (lossUser f d X Y G) s =
      { s with
        loss := s.loss + (us.map fun u =>
          (lossRow (colMat f G) (devEntries f d Y u) fun t => X (u * f + t.val)).2).sum
        conf := s.conf + (us.map fun u =>
          (lossRow (colMat f G) (devEntries f d Y u) fun t => X (u * f + t.val)).1).sum
        userNorm := s.userNorm + (us.map fun u =>
          dot (fun t : Fin f => X (u * f + t.val)) fun t => X (u * f + t.val)).sum } := by
  induction us generalizing s with
  | nil => simp
  | cons u us ih =>
    rw [List.foldl_cons, ih, lossUser_eq]
    simp [add_assoc]

theorem foldl_lossItem (Y : Nat → R) (is : List Nat) (s : LossRegs R) :
    is.foldl (lossItem f Y) s =
      { s with itemNorm := s.itemNorm + (is.map fun i =>
          dot (fun t : Fin f => Y (i * f + t.val)) fun t => Y (i * f + t.val)).sum } := by
  induction is generalizing s with
  | nil => simp
  | cons i is ih =>
    rw [List.foldl_cons, ih]
    simp [lossItem, add_assoc]

/-- The rows of all blocks together. -/
theorem sum_gridStride {grid : Nat} (hg : 0 < grid) (n : Nat) (g : Nat → R) {order : List Nat}
    (ho : order.Perm (List.range grid)) :
    (order.map fun b => ((gridStride grid n b).map g).sum).sum = ((List.range n).map g).sum := by
  have hp : (order.flatMap fun b => gridStride grid n b).Perm (List.range n) := by
    refine (List.perm_ext_iff_of_nodup ?_ List.nodup_range).mpr fun u => ?_
    · rw [List.nodup_flatMap]
      refine ⟨fun b _ => nodup_gridStride b, ?_⟩
      have hnd : order.Nodup := ho.nodup_iff.mpr List.nodup_range
      refine List.Pairwise.imp_of_mem ?_ hnd
      intro b b' hb hb' hne
      have h1 : b < grid := by simpa using ho.mem_iff.mp hb
      have h2 : b' < grid := by simpa using ho.mem_iff.mp hb'
      rw [Function.onFun, List.disjoint_left]
      intro u hu hu'
      have e1 := ((mem_gridStride hg _ _).mp hu).2.2
      have e2 := ((mem_gridStride hg _ _).mp hu').2.2
      rw [Nat.mod_eq_of_lt h1] at e1
      rw [Nat.mod_eq_of_lt h2] at e2
      omega
    · rw [List.mem_flatMap, List.mem_range]
      constructor
      · rintro ⟨b, _, hb⟩
        exact ((mem_gridStride hg _ _).mp hb).1
      · intro hu
        refine ⟨u % grid, ho.mem_iff.mpr (by simpa using Nat.mod_lt _ hg), ?_⟩
        exact (mem_gridStride hg _ _).mpr ⟨hu, Nat.mod_le _ _, by simp⟩
  have h2 := (hp.map g).sum_eq
  rw [← h2, List.map_flatMap, List.flatMap, List.sum_flatten, List.map_map]
  rfl

theorem foldl_add_eq (l : List Nat) (g : Nat → R) (o : R) :
    l.foldl (fun o b => o + g b) o = o + (l.map g).sum := by
  induction l generalizing o with
  | nil => simp
  | cons a l ih => rw [List.foldl_cons, ih]; simp [add_assoc]

/-- **C54** (training loss).  For any grid and any order of the atomic additions, the GPU reports the loss
the CPU model computes. -/
theorem C54_loss_partial {C : SpRows R} {cols : Nat} {X Y : List (Vec f R)} {reg l : R}
    (h : calculateLoss C cols X Y reg = .ok l) {d : DevCsr R}
    (hd : HoldsCsr d.indptr d.indices d.data C) {grid : Nat} (hg : 0 < grid) {Xm Ym old : Nat → R}
    (hX : HoldsRows Xm X) (hY : HoldsRows Ym Y) {ts order order' : List Nat}
    (hts : ts.Perm (List.range f)) (ho : order.Perm (List.range grid)) (ho' : order'.Perm (List.range grid)) :
    devLoss f d grid X.length Y.length C.length cols (C.map List.length).sum Xm Ym
      (deviceYtY f Y.length 0 ts Ym old) reg order order' = l := by
  set G := deviceYtY f Y.length 0 ts Ym old with hG
  have hmat : colMat f G = gram Y := by
    funext a b
    rw [show colMat f G a b = _ from deviceYtY_spec hY 0 hts a b]
    simp [regularised]
  unfold calculateLoss at h
  cases hp : X.zipIdx.mapM (lossPart C Y) with
  | error e => rw [hp] at h; cases h
  | ok parts =>
    rw [hp] at h
    simp only [bind, Except.bind, pure, Except.pure, Except.ok.injEq] at h
    obtain ⟨hplen, hprow⟩ := mapM_ok_iff hp
    have hplen' : parts.length = X.length := by simpa using hplen
    set L : Nat → R × R := fun u =>
      lossRow (colMat f G) (devEntries f d Ym u) fun t => Xm (u * f + t.val) with hL
    have hparts : parts = (List.range X.length).map L := by
      refine List.ext_getElem (by simp [hplen']) fun u h1 h2 => ?_
      have hu : u < X.length := by omega
      obtain ⟨y, hy, hy'⟩ := hprow u (X[u], u) (by simp [hu])
      rw [List.getElem?_eq_getElem h1] at hy'
      cases hy'
      simp only [List.getElem_map, List.getElem_range]
      unfold lossPart at hy
      simp only at hy
      cases hC : C[u]? with
      | none => rw [hC] at hy; cases hy
      | some row =>
        rw [hC] at hy
        simp only at hy
        cases he : rowEntries .undefinedBehaviour Y row with
        | error e => rw [he] at hy; cases hy
        | ok es =>
          rw [he] at hy
          simp only [bind, Except.bind, pure, Except.pure, Except.ok.injEq] at hy
          rw [← hy, hL]
          simp only
          have hxu : (fun t : Fin f => Xm (u * f + t.val)) = X[u] :=
            funext fun t => hX u X[u] (List.getElem?_eq_getElem hu) t
          rw [hmat, devEntries_eq hd hY hC he, hxu]
    have hnorm : ∀ (Z : List (Vec f R)) (Zm : Nat → R), HoldsRows Zm Z →
        ((List.range Z.length).map fun u =>
          dot (fun t : Fin f => Zm (u * f + t.val)) fun t => Zm (u * f + t.val)).sum =
        (Z.map fun z => dot z z).sum := by
      intro Z Zm hZ
      congr 1
      refine List.ext_getElem (by simp) fun u h1 h2 => ?_
      have hu : u < Z.length := by simpa using h2
      simp only [List.getElem_map, List.getElem_range]
      have hxu : (fun t : Fin f => Zm (u * f + t.val)) = Z[u] :=
        funext fun t => hZ u Z[u] (List.getElem?_eq_getElem hu) t
      rw [hxu]
    have hblock : ∀ b, lossBlock f d grid X.length Y.length Xm Ym G reg b =
        (((gridStride grid X.length b).map fun u => (L u).2).sum +
          reg * (((gridStride grid Y.length b).map fun i =>
            dot (fun t : Fin f => Ym (i * f + t.val)) fun t => Ym (i * f + t.val)).sum +
          ((gridStride grid X.length b).map fun u =>
            dot (fun t : Fin f => Xm (u * f + t.val)) fun t => Xm (u * f + t.val)).sum),
        ((gridStride grid X.length b).map fun u => (L u).1).sum) := by
      intro b
      unfold lossBlock
      simp only [foldl_lossUser, foldl_lossItem, zero_add, hL]
    have hsum : ∀ (l : List Nat) (A B D : Nat → R),
        (l.map fun b => A b + reg * (B b + D b)).sum =
          (l.map A).sum + reg * ((l.map B).sum + (l.map D).sum) := by
      intro l A B D
      induction l with
      | nil => simp
      | cons a l ih => simp only [List.map_cons, List.sum_cons, ih]; ring
    unfold devLoss
    simp only [hblock]
    rw [foldl_add_eq, foldl_add_eq, zero_add, zero_add, hsum,
      sum_gridStride hg _ _ ho, sum_gridStride hg _ _ ho, sum_gridStride hg _ _ ho,
      sum_gridStride hg _ _ ho', hnorm X Xm hX, hnorm Y Ym hY, ← h, hparts]
    simp only [List.map_map, Function.comp_def]

/-- **C54** (training loss, in terms of the objective): see C12 for the weight of the negative entries. -/
theorem C54_loss_value_partial [IsStrictOrderedRing R] {C : SpRows R} {X Y : List (Vec f R)} {reg : R}
    (hC : C.length = X.length) (hv : ∀ row ∈ C, ValidRow Y.length row) {d : DevCsr R}
    (hd : HoldsCsr d.indptr d.indices d.data C) {grid : Nat} (hg : 0 < grid) {Xm Ym old : Nat → R}
    (hX : HoldsRows Xm X) (hY : HoldsRows Ym Y) {ts order order' : List Nat}
    (hts : ts.Perm (List.range f)) (ho : order.Perm (List.range grid)) (ho' : order'.Perm (List.range grid)) :
    devLoss f d grid X.length Y.length C.length Y.length (C.map List.length).sum Xm Ym
      (deviceYtY f Y.length 0 ts Ym old) reg order order' =
      (Spec.objective C X Y reg + negativeWeight C) / Spec.totalConfidence C X.length Y.length :=
  C54_loss_partial (C12_loss_value C X Y hC hv reg) hd hg hX hY hts ho ho'

/-! ## Examples -/

theorem streamOf_append {Th I : Type} [DecidableEq Th] (t : Th) (w w' : List (Th × I)) :
    streamOf t (w ++ w') = streamOf t w ++ streamOf t w' := by
  unfold streamOf; rw [List.filter_append, List.map_append]

theorem streamOf_map {Th I : Type} [DecidableEq Th] (t t' : Th) (is : List I) :
    streamOf t (is.map fun i => (t', i)) = if t' = t then is else [] := by
  induction is with
  | nil => simp [streamOf]
  | cons i is ih =>
    rw [List.map_cons, streamOf_cons, ih]
    by_cases h : t' = t <;> simp [h]

/-- Executions exist: the blocks can run one after the other. -/
theorem devSweep_exists (d : DevCsr R) (small reg : R) (steps grid users items : Nat) (X Y : Nat → R) :
    ∃ X', DevSweep f d small reg steps grid users items X Y X' := by
  have key : ∀ bs : List (Fin grid), bs.Nodup → ∃ w : List (Fin grid × BlockInstr f),
      ∀ b, streamOf b w = if b ∈ bs then
        (gridStride grid users b.val).flatMap (fun u => blockRow f d steps u) else [] := by
    intro bs
    induction bs with
    | nil => intro _; exact ⟨[], fun b => by simp [streamOf]⟩
    | cons b0 bs ih =>
      intro hnd
      rw [List.nodup_cons] at hnd
      obtain ⟨w, hw⟩ := ih hnd.2
      refine ⟨((gridStride grid users b0.val).flatMap fun u => blockRow f d steps u).map (fun i => (b0, i)) ++ w,
        fun b => ?_⟩
      rw [streamOf_append, streamOf_map, hw b]
      by_cases h : b0 = b
      · subst h; simp [hnd.1]
      · simp [h, Ne.symm h]
  obtain ⟨w, hw⟩ := key (List.finRange grid) (List.nodup_finRange grid)
  exact ⟨_, List.range f, fun _ => 0, w, fun _ => ⟨0, 0, 0, 0, 0, 0, false, false⟩, List.Perm.refl _,
    fun b => by simpa using hw b, rfl⟩

/-- Two users (the second without entries), two items, one factor, as device arrays. -/
def c54Csr : DevCsr Rat := ⟨fun u => [0, 2, 2].getD u 2, fun k => [0, 1].getD k 0, fun k => [3, -2].getD k 0⟩

example : HoldsCsr c54Csr.indptr c54Csr.indices c54Csr.data [[(0, 3), (1, -2)], []] := by
  intro u row h
  match u with
  | 0 =>
    cases h
    refine ⟨rfl, fun k e hk => ?_⟩
    match k with
    | 0 => cases hk; exact ⟨rfl, rfl⟩
    | 1 => cases hk; exact ⟨rfl, rfl⟩
    | k + 2 => simp at hk
  | 1 => cases h; exact ⟨rfl, by simp⟩
  | u + 2 => simp at h

/-- The row program on these data: user 0 moves to the optimum `3 / (3 * 1 + 2 * 4 + 1) = 1 / 4`; user 1 is reset. -/
example :
    let Y : Nat → Rat := fun a => [1, 2].getD a 0
    let G := deviceYtY 1 2 1 [0] Y (fun _ => 7)
    let act := blockAct (f := 1) c54Csr Y G (1 / 10 ^ 20)
    let s : BlockRegs 1 Rat := ⟨0, 0, 0, 0, 0, 0, true, true⟩
    G 0 = 6 ∧
    (runInstrs act (blockRow 1 c54Csr 3 0) s (fun a => [5, 9].getD a 0)).2 0 = 1 / 4 ∧
    (runInstrs act (blockRow 1 c54Csr 3 1) s (fun a => [5, 9].getD a 0)).2 1 = 0 := by
  decide +kernel

/-- The loss on the same data, with three blocks. -/
example :
    let Y : Nat → Rat := fun a => [1, 2].getD a 0
    let X : Nat → Rat := fun a => [1 / 4, 0].getD a 0
    (calculateLoss (f := 1) [[(0, 3), (1, -2)], []] 2 [![1 / 4], ![0]] [![1], ![2]] 1).toOption =
      some (devLoss 1 c54Csr 3 2 2 2 2 2 X Y (deviceYtY 1 2 0 [0] Y (fun _ => 7)) 1 [2, 0, 1] [1, 0, 2]) := by
  decide +kernel

end Implicit
