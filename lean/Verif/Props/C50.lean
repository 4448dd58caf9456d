import Verif.Props.C36
import Verif.Lemmas.Parallel
import Mathlib.Data.Rat.Floor
import Mathlib.Tactic.Positivity
import Mathlib.Tactic.LinearCombination

/-!
# C50 — training counters are consistent

Whatever the draws, the interleaving and the memory contents seen by the threads.
-/

set_option linter.unusedSectionVars false

namespace Implicit

open Spec

variable {R : Type} [LinearOrder R] [Field R] {Th : Type} [DecidableEq Th]

/-- A quantity of the scratch memory that every instruction increases by at most `w` grows by at most
the sum over the thread's own stream. -/
theorem exec_counter {I Sc Addr V : Type} {act : Act I Sc Addr V} (q : Sc → Nat) (wt : I → Nat)
    (h : ∀ i s m, q (act i s m).1 ≤ q s + wt i) (w : List (Th × I)) (σ : Th → Sc) (m : Addr → V)
    (t : Th) :
    q ((execInterleaved act w σ m).1 t) ≤ q (σ t) + ((streamOf t w).map wt).sum := by
  induction w generalizing σ m with
  | nil => simp [execInterleaved, streamOf]
  | cons p w ih =>
    unfold execInterleaved
    refine (ih _ _).trans ?_
    rw [streamOf_cons]
    by_cases hp : p.1 = t
    · subst hp
      rw [Function.update_self, if_pos rfl, List.map_cons, List.sum_cons]
      have := h p.2 (σ p.1) m
      omega
    · rw [Function.update_of_ne (fun e => hp e.symm), if_neg hp]

/-- Instructions that count a sample. -/
def BprInstr.weight : BprInstr → Nat
  | .skip | .logistic => 1
  | _ => 0

theorem bprAct_weight (sig : R → R) (lr reg : R) (i : BprInstr) (s : BprScratch R) (m : BprCell → R) :
    (bprAct sig lr reg i s m).1.correct + (bprAct sig lr reg i s m).1.skipped ≤
      s.correct + s.skipped + i.weight := by
  cases i <;> simp only [bprAct, BprInstr.weight] <;> try omega
  split_ifs <;> omega

theorem sum_map_flatMap_zero {A C : Type} (l : List A) (g : A → List C) (wt : C → Nat)
    (h : ∀ a ∈ l, ∀ c ∈ g a, wt c = 0) : ((l.flatMap g).map wt).sum = 0 := by
  rw [List.sum_eq_zero]
  intro x hx
  obtain ⟨c, hc, rfl⟩ := List.mem_map.mp hx
  obtain ⟨a, ha, hca⟩ := List.mem_flatMap.mp hc
  exact h a ha c hca

theorem bprUpdateProg_weight (factors : Nat) (t : BprTriple) :
    ((bprUpdateProg factors t).map BprInstr.weight).sum = 1 := by
  unfold bprUpdateProg
  rw [List.map_append, List.map_append, List.map_append, List.map_append, List.sum_append,
    List.sum_append, List.sum_append, List.sum_append,
    sum_map_flatMap_zero (List.range (factors + 1)) (bprScoreRound t) _ ?_,
    sum_map_flatMap_zero (List.range factors) (bprUpdateRound t) _ ?_]
  · rfl
  · intro j _ c hc
    simp only [bprUpdateRound, List.mem_cons, List.not_mem_nil, or_false] at hc
    rcases hc with rfl | rfl | rfl | rfl | rfl | rfl | rfl | rfl | rfl <;> rfl
  · intro j _ c hc
    simp only [bprScoreRound, List.mem_cons, List.not_mem_nil, or_false] at hc
    rcases hc with rfl | rfl | rfl | rfl <;> rfl

theorem bprProg_weight (verify : Bool) (rows : List (List Nat)) (factors : Nat) (d : Nat × Nat) :
    ((bprProg verify rows factors d).map BprInstr.weight).sum ≤ 1 := by
  unfold bprProg
  split
  · simp
  · simp [BprInstr.weight]
  · rw [bprUpdateProg_weight]

theorem sum_flatMap_le {A C : Type} (l : List A) (g : A → List C) (wt : C → Nat)
    (h : ∀ a, ((g a).map wt).sum ≤ 1) : ((l.flatMap g).map wt).sum ≤ l.length := by
  induction l with
  | nil => simp
  | cons a l ih =>
    rw [List.flatMap_cons, List.map_append, List.sum_append, List.length_cons]
    have := h a
    omega

/-- **The counters of one epoch**: `correct + skipped` is at most the number of samples. -/
theorem C50_counters [Fintype Th] (sig : R → R) (lr reg : R) (verify : Bool)
    (matrix : List (List Nat)) (factors : Nat) (e : BprEpoch Th)
    (he : e.Valid verify (bprRows verify matrix) factors) (σ : Th → BprScratch R)
    (m : BprCell → R) :
    let s := bprStats (bprEpoch sig lr reg σ e m).1
    s.1 + s.2 ≤ nnz matrix := by
  intro s
  have : s.1 + s.2 = ∑ t, (((bprEpoch sig lr reg σ e m).1 t).correct +
      ((bprEpoch sig lr reg σ e m).1 t).skipped) := by
    rw [Finset.sum_add_distrib]; rfl
  rw [this, ← bprRows_nnz verify, ← he.samples]
  refine Finset.sum_le_sum fun t _ => ?_
  refine (exec_counter (fun s : BprScratch R => s.correct + s.skipped) BprInstr.weight
    (bprAct_weight sig lr reg) e.schedule _ m t).trans ?_
  rw [he.schedule t]
  simp only [BprScratch.fresh]
  have := sum_flatMap_le (e.draws t) (bprProg verify (bprRows verify matrix) factors)
    BprInstr.weight (bprProg_weight verify _ factors)
  omega

theorem exec_counter_skip {I Sc Addr V : Type} {act : Act I Sc Addr V} (q : Sc → Nat) (wt : I → Nat)
    (h : ∀ i s m, q (act i s m).1 = q s + wt i) (w : List (Th × I)) (σ : Th → Sc) (m : Addr → V)
    (t : Th) :
    q ((execInterleaved act w σ m).1 t) = q (σ t) + ((streamOf t w).map wt).sum := by
  induction w generalizing σ m with
  | nil => simp [execInterleaved, streamOf]
  | cons p w ih =>
    unfold execInterleaved
    rw [ih, streamOf_cons]
    by_cases hp : p.1 = t
    · subst hp
      rw [Function.update_self, if_pos rfl, List.map_cons, List.sum_cons, h p.2 (σ p.1) m,
        Nat.add_assoc]
    · rw [Function.update_of_ne (fun e => hp e.symm), if_neg hp]

/-- A drawn pair is rejected: the drawn negative is stored in the row of the drawn positive. -/
def Spec.Rejected (verify : Bool) (rows : List (List Nat)) (d : Nat × Nat) : Prop :=
  verify = true ∧ ∃ u j, (useridsOf rows)[d.1]? = some u ∧ rows.flatten[d.2]? = some j ∧ Likes rows u j

open Classical in
/-- **`skipped` counts exactly the rejected samples.** -/
theorem C50_skipped [Fintype Th] (sig : R → R) (lr reg : R) (verify : Bool)
    (matrix : List (List Nat)) (factors : Nat) (e : BprEpoch Th)
    (he : e.Valid verify (bprRows verify matrix) factors) (σ : Th → BprScratch R)
    (m : BprCell → R) :
    (bprStats (bprEpoch sig lr reg σ e m).1).2 =
      ∑ t, (e.draws t).countP fun d => decide (Rejected verify (bprRows verify matrix) d) := by
  refine Finset.sum_congr rfl fun t _ => ?_
  set wt : BprInstr → Nat := fun i => match i with | .skip => 1 | _ => 0 with hwt
  have h1 := exec_counter_skip (act := bprAct sig lr reg) (fun s : BprScratch R => s.skipped) wt
    (by intro i s m; cases i <;> rfl) e.schedule (fun t => (σ t).fresh) m t
  unfold bprEpoch
  rw [h1, he.schedule t]
  simp only [BprScratch.fresh, Nat.zero_add]
  have hd := he.draws t
  revert hd
  generalize e.draws t = ds
  intro hd
  induction ds with
  | nil => rfl
  | cons d ds ih =>
    rw [List.flatMap_cons, List.map_append, List.sum_append, ih (fun d' h' => hd d' (by simp [h'])),
      List.countP_cons, Nat.add_comm]
    congr 1
    obtain ⟨hl, hr⟩ := hd d (by simp)
    obtain ⟨u, i, j, r, hi, hu, hj, hrow, hir, hc⟩ := bprChoose_ok verify (bprRows verify matrix)
      (fun hv => by subst hv; exact bprRows_sorted matrix) d.1 d.2 hl hr
    unfold bprProg
    rw [hc]
    have hiff : Rejected verify (bprRows verify matrix) d ↔ verify = true ∧ j ∈ r := by
      constructor
      · rintro ⟨hv, u', j', h1, h2, r', h3, h4⟩
        rw [hu] at h1; cases h1
        rw [hj] at h2; cases h2
        rw [hrow] at h3; cases h3
        exact ⟨hv, h4⟩
      · rintro ⟨hv, hm⟩
        exact ⟨hv, u, j, hu, hj, r, hrow, hm⟩
    by_cases hx : verify = true ∧ j ∈ r
    · rw [if_pos hx, decide_eq_true (hiff.mpr hx)]
      rfl
    · rw [if_neg hx]
      simp only [hiff, hx, decide_false, Bool.false_eq_true, if_false]
      rw [List.sum_eq_zero]
      intro x hx'
      obtain ⟨c, hc', rfl⟩ := List.mem_map.mp hx'
      unfold bprUpdateProg bprScoreRound bprUpdateRound at hc'
      simp only [List.mem_append, List.mem_flatMap, List.mem_cons, List.not_mem_nil, or_false] at hc'
      rcases hc' with (((rfl | ⟨j, _, rfl | rfl | rfl | rfl⟩) | rfl) |
        ⟨j, _, rfl | rfl | rfl | rfl | rfl | rfl | rfl | rfl | rfl⟩) | rfl | rfl | rfl | rfl <;> rfl

theorem report_range (total correct skipped : Nat) (h : correct + skipped ≤ total) (a b : Rat)
    (hr : bprReport total correct skipped = some (a, b)) :
    ((total : Rat) - skipped ≠ 0 ∧ (total : Rat) ≠ 0) ∧ 0 ≤ a ∧ a ≤ 100 ∧ 0 ≤ b ∧ b ≤ 100 := by
  unfold bprReport at hr
  split_ifs at hr with hc
  obtain ⟨h0, h1⟩ := hc
  have ht : (0 : Rat) < (total : Rat) := by
    have : total ≠ 0 := by exact_mod_cast h0
    exact_mod_cast Nat.pos_of_ne_zero this
  have hs : (0 : Rat) < (total : Rat) - skipped := by
    have : skipped < total := by
      have : total ≠ skipped := by exact_mod_cast h1
      omega
    have : (skipped : Rat) < (total : Rat) := by exact_mod_cast this
    linarith
  have hc' : (correct : Rat) ≤ (total : Rat) - skipped := by
    have : ((correct + skipped : Nat) : Rat) ≤ (total : Rat) := by exact_mod_cast h
    push_cast at this
    linarith
  have hk : (skipped : Rat) ≤ (total : Rat) := by linarith
  have hc0 : (0 : Rat) ≤ (correct : Rat) := by positivity
  have hk0 : (0 : Rat) ≤ (skipped : Rat) := by positivity
  simp only [Option.some.injEq, Prod.mk.injEq, Int.cast_natCast] at hr
  obtain ⟨rfl, rfl⟩ := hr
  refine ⟨⟨ne_of_gt hs, ne_of_gt ht⟩, by positivity, ?_, by positivity, ?_⟩
  · rw [div_le_iff₀ hs]; linarith
  · rw [div_le_iff₀ ht]; linarith

/-- **The reported percentages** are in `[0, 100]` and computed without dividing by zero. -/
theorem C50_report [Fintype Th] (sig : R → R) (lr reg : R) (verify : Bool)
    (matrix : List (List Nat)) (factors : Nat) (e : BprEpoch Th)
    (he : e.Valid verify (bprRows verify matrix) factors) (σ : Th → BprScratch R)
    (m : BprCell → R) (a b : Rat)
    (hr : bprReport (nnz matrix) (bprStats (bprEpoch sig lr reg σ e m).1).1
      (bprStats (bprEpoch sig lr reg σ e m).1).2 = some (a, b)) :
    ((nnz matrix : Rat) - (bprStats (bprEpoch sig lr reg σ e m).1).2 ≠ 0 ∧ (nnz matrix : Rat) ≠ 0) ∧
      0 ≤ a ∧ a ≤ 100 ∧ 0 ≤ b ∧ b ≤ 100 :=
  report_range _ _ _ (C50_counters sig lr reg verify matrix factors e he σ m) a b hr

/-! ## GPU -/

variable {B : Type} [DecidableEq B] {cols : Nat}

/-- Instructions of the kernel that count a sample. -/
def GpuBprInstr.weight : GpuBprInstr R → Nat
  | .skip | .logistic _ => 1
  | _ => 0

theorem gpuBprAct_weight (sig : R → R) (lr reg : R) (i : GpuBprInstr R) (s : GpuBprScratch R)
    (m : BprCell → R) :
    (gpuBprAct sig lr reg cols i s m).1.correct + (gpuBprAct sig lr reg cols i s m).1.skipped ≤
      s.correct + s.skipped + i.weight := by
  cases i <;> simp only [gpuBprAct, GpuBprInstr.weight] <;> try omega
  split_ifs <;> omega

/-- **The counters of one launch of the CUDA kernel.** -/
theorem C50_gpu [Fintype B] [NeZero cols] (sig : R → R) (lr reg : R) (verify : Bool)
    (matrix : List (List Nat)) (e : GpuBprEpoch B R cols)
    (he : e.Valid verify (bprRows verify matrix)) (σ : B × Fin cols → GpuBprScratch R)
    (m : BprCell → R) :
    let s := gpuBprStats (gpuBprEpoch sig lr reg σ e m).1
    s.1 + s.2 ≤ nnz matrix ∧ ∀ a b, bprReport (nnz matrix) s.1 s.2 = some (a, b) →
      0 ≤ a ∧ a ≤ 100 ∧ 0 ≤ b ∧ b ≤ 100 := by
  intro s
  have hle : s.1 + s.2 ≤ nnz matrix := by
    have : s.1 + s.2 = ∑ b, (((gpuBprEpoch sig lr reg σ e m).1 (b, 0)).correct +
        ((gpuBprEpoch sig lr reg σ e m).1 (b, 0)).skipped) := by
      rw [Finset.sum_add_distrib]; rfl
    rw [this, ← bprRows_nnz verify, ← he.samples]
    refine Finset.sum_le_sum fun b _ => ?_
    refine (exec_counter (fun s : GpuBprScratch R => s.correct + s.skipped) GpuBprInstr.weight
      (gpuBprAct_weight sig lr reg) e.schedule _ m (b, 0)).trans ?_
    rw [he.schedule (b, 0)]
    dsimp only
    have := sum_flatMap_le (e.queue (b, 0)) (gpuBprProg verify (bprRows verify matrix))
      GpuBprInstr.weight (fun task => by
        unfold gpuBprProg
        split
        · simp
        · simp [GpuBprInstr.weight]
        · simp [GpuBprInstr.weight])
    have hl : (e.queue (b, 0)).length = (e.draws b).length := by simp [GpuBprEpoch.queue]
    rw [hl] at this
    omega
  exact ⟨hle, fun a b hr => (report_range _ _ _ hle a b hr).2⟩

/-- The example epoch: two updates (with `z = 1/4` both count as correct) and one skipped sample. -/
example :
    bprStats (bprEpoch (R := ℚ) (fun _ => 1 / 4) (1 / 10) 0 (fun _ => ⟨0, 0, 0, 0, 0, 0, 7, 7⟩)
      exampleEpoch (fun _ => 0)).1 = (2, 1) ∧ nnz [[2, 0], [1]] = 3 ∧
    bprReport 3 2 1 = some (100, 100 / 3) ∧ bprReport 3 0 3 = none := by
  decide +kernel

end Implicit
