import Verif.Props.C11
import Verif.Lemmas.CG

/-!
# C14 — the conjugate-gradient solver never makes a factor worse and converges to the exact solution

The arithmetic of one row is the same in `implicit/cpu/_als.pyx:177-244`, `implicit/cpu/als.py:531-568`
and `implicit/gpu/als.cu:38-110` (the last without the NaN fallback).
-/

namespace Implicit

variable {R : Type} [LinearOrder R] [Field R] [IsStrictOrderedRing R] {f : Nat}

open Spec (ValidRow)

/-- The entries of a valid row, with their factors. -/
def entriesOf (Y : List (Vec f R)) (row : List (Nat × R)) : List (Vec f R × R) :=
  row.map fun e => (Y[e.1]?.getD 0, e.2)

/-- The state of the code's CG run for one row after `k` rounds, when it is not stopped early. -/
def cgRun (Y : List (Vec f R)) (row : List (Nat × R)) (reg : R) (x : Vec f R) (k : Nat) : CG f R :=
  let G := regularised (gram Y) reg
  let r := cgResidual G (entriesOf Y row) x
  (cgStep (cgApply G (entriesOf Y row)))^[k] ⟨x, r, r, dot r r⟩

theorem cgRun_eq (Y : List (Vec f R)) (row : List (Nat × R)) (reg : R) (x : Vec f R) (k : Nat) :
    cgRun Y row reg x k = cgState (linearEquation (gram Y) reg (entriesOf Y row)).1
      (linearEquation (gram Y) reg (entriesOf Y row)).2 x k := by
  unfold cgRun cgState cgInit
  have : cgApply (regularised (gram Y) reg) (entriesOf Y row) =
      mulVec (linearEquation (gram Y) reg (entriesOf Y row)).1 :=
    funext (cgApply_eq (gram Y) reg (entriesOf Y row))
  simp only [cgResidual_eq, this]

theorem rowLoss_quad (Y : List (Vec f R)) (row : List (Nat × R)) (h : ValidRow Y.length row)
    (reg : R) (x : Vec f R) :
    Spec.rowLoss Y row reg x = quad (linearEquation (gram Y) reg (entriesOf Y row)).1
      (linearEquation (gram Y) reg (entriesOf Y row)).2 x + (row.map fun e => gain e.2).sum :=
  rowLoss_eq Y row h.nodup h.lt reg x

/-- **C14** (residual).  After any number of rounds the tracked vector `r` is the true residual of the
current `x`, and `rsold` its squared length. -/
theorem C14_cg_residual (Y : List (Vec f R)) (row : List (Nat × R)) (h : ValidRow Y.length row)
    (reg : R) (x : Vec f R) (k : Nat) :
    (cgRun Y row reg x k).r = Spec.residual Y row reg (cgRun Y row reg x k).x ∧
      (cgRun Y row reg x k).rsold = ∑ j, Spec.residual Y row reg (cgRun Y row reg x k).x j ^ 2 := by
  have h1 : (cgRun Y row reg x k).r = Spec.residual Y row reg (cgRun Y row reg x k).x := by
    rw [residual_eq Y row h, cgRun_eq]
    exact state_residual k
  refine ⟨h1, ?_⟩
  rw [← h1]
  have h2 : (cgRun Y row reg x k).rsold = dot (cgRun Y row reg x k).r (cgRun Y row reg x k).r := by
    rw [cgRun_eq]; exact state_rs k
  rw [h2]
  exact Finset.sum_congr rfl (fun j _ => by ring)

/-- **C14** (each round).  A round never increases the user's loss, and decreases it strictly when the
search direction is not zero. -/
theorem C14_cg_step (Y : List (Vec f R)) (row : List (Nat × R)) (h : ValidRow Y.length row)
    {reg : R} (hreg : 0 < reg) (x : Vec f R) (k : Nat) :
    Spec.rowLoss Y row reg (cgRun Y row reg x (k + 1)).x ≤
        Spec.rowLoss Y row reg (cgRun Y row reg x k).x ∧
      ((cgRun Y row reg x k).p ≠ 0 →
        Spec.rowLoss Y row reg (cgRun Y row reg x (k + 1)).x <
          Spec.rowLoss Y row reg (cgRun Y row reg x k).x) := by
  have hA : PosDef (linearEquation (gram Y) reg (entriesOf Y row)).1 :=
    linearEquation_posDef Y row h.nodup h.lt hreg
  simp only [rowLoss_quad Y row h, cgRun_eq]
  refine ⟨by simpa using state_quad_le hA k, fun hp => ?_⟩
  simpa using state_quad_lt hA hp

/-- What the loop returns, in terms of the run: the start when its residual is below the tolerance,
otherwise the iterate after `k ≤ steps` rounds, `k` being the number of rounds asked for unless the
tolerance was reached. -/
theorem cgSolve_run (Y : List (Vec f R)) (row : List (Nat × R)) (reg tol : R) (steps : Nat)
    (x : Vec f R) :
    ∃ k, k ≤ steps ∧
      cgSolve (regularised (gram Y) reg) tol steps (entriesOf Y row) x = (cgRun Y row reg x k).x ∧
      (k = steps ∨ (cgRun Y row reg x k).rsold < tol) ∧
      (∀ j, j < k → tol ≤ (cgRun Y row reg x j).rsold) ∧
      (1 ≤ steps → tol ≤ (cgRun Y row reg x 0).rsold → 1 ≤ k) := by
  unfold cgSolve
  by_cases h : (cgRun Y row reg x 0).rsold < tol
  · refine ⟨0, by omega, ?_, Or.inr h, fun j hj => by omega,
      fun _ h' => absurd h (not_lt.mpr h')⟩
    have h' : dot (cgResidual (regularised (gram Y) reg) (entriesOf Y row) x)
      (cgResidual (regularised (gram Y) reg) (entriesOf Y row) x) < tol := h
    simp only [h', if_true]
    rfl
  · have h' : ¬ dot (cgResidual (regularised (gram Y) reg) (entriesOf Y row) x)
      (cgResidual (regularised (gram Y) reg) (entriesOf Y row) x) < tol := h
    simp only [h', if_false]
    obtain ⟨k, h1, h2, h3, h4, h5⟩ := cgLoop_eq (cgApply (regularised (gram Y) reg) (entriesOf Y row))
      tol steps ⟨x, cgResidual (regularised (gram Y) reg) (entriesOf Y row) x,
        cgResidual (regularised (gram Y) reg) (entriesOf Y row) x,
        dot (cgResidual (regularised (gram Y) reg) (entriesOf Y row) x)
          (cgResidual (regularised (gram Y) reg) (entriesOf Y row) x)⟩
    refine ⟨k, h1, h2, ?_, ?_, fun h _ => h5 h⟩
    · rcases h3 with h3 | h3
      · exact Or.inl h3
      · exact Or.inr h3.2
    · intro j hj
      cases j with
      | zero => exact not_lt.mp h
      | succ j => exact h4 (j + 1) (by omega) hj

theorem run_le (Y : List (Vec f R)) (row : List (Nat × R)) (h : ValidRow Y.length row)
    {reg : R} (hreg : 0 < reg) (x : Vec f R) (k : Nat) :
    Spec.rowLoss Y row reg (cgRun Y row reg x k).x ≤ Spec.rowLoss Y row reg x := by
  induction k with
  | zero => exact le_refl _
  | succ k ih => exact (C14_cg_step Y row h hreg x k).1.trans ih

/-- **C14** (never worse).  Whatever the previous factor `x`, the tolerance and the number of rounds,
the loss of the new factor is at most the loss of `x`; for at least one round and a start that is not
already within the tolerance `tol > 0` it is strictly smaller. -/
theorem C14_cg_never_worse (Y : List (Vec f R)) (row : List (Nat × R)) (h : ValidRow Y.length row)
    {reg : R} (hreg : 0 < reg) (tol : R) (steps : Nat) (x : Vec f R) :
    (let x' := cgSolve (regularised (gram Y) reg) tol steps (entriesOf Y row) x
     Spec.rowLoss Y row reg x' ≤ Spec.rowLoss Y row reg x ∧
      (1 ≤ steps → 0 < tol → tol ≤ ∑ j, Spec.residual Y row reg x j ^ 2 →
        Spec.rowLoss Y row reg x' < Spec.rowLoss Y row reg x)) := by
  obtain ⟨k, hk, e, _, _, h1⟩ := cgSolve_run Y row reg tol steps x
  simp only [e]
  refine ⟨run_le Y row h hreg x k, fun hs ht hr => ?_⟩
  have h0 := (C14_cg_residual Y row h reg x 0)
  have hk1 : 1 ≤ k := h1 hs (by rw [h0.2]; exact hr)
  obtain ⟨k, rfl⟩ : ∃ k', k = k' + 1 := ⟨k - 1, by omega⟩
  -- the first round is strict, the others do not increase
  have hne : (cgRun Y row reg x 0).r ≠ 0 := by
    intro hz
    have h2 : Spec.residual Y row reg x = 0 := by rw [← hz]; exact h0.1.symm
    rw [h2] at hr
    simp at hr
    exact absurd ht (not_lt.mpr hr)
  have hstrict := (C14_cg_step Y row h hreg x 0).2 hne
  have hmono : ∀ m, Spec.rowLoss Y row reg (cgRun Y row reg x (m + 1)).x ≤
      Spec.rowLoss Y row reg (cgRun Y row reg x 1).x := by
    intro m
    induction m with
    | zero => exact le_refl _
    | succ m ih => exact (C14_cg_step Y row h hreg x (m + 1)).1.trans ih
  exact lt_of_le_of_lt (hmono k) hstrict

/-- **C14** (convergence).  With at least as many rounds as factors, the result has a residual below
the tolerance; and if the tolerance was not reached before round `f` then the result is the exact
solution, the unique optimum. -/
theorem C14_cg_converges (Y : List (Vec f R)) (row : List (Nat × R)) (h : ValidRow Y.length row)
    {reg : R} (hreg : 0 < reg) {tol : R} (htol : 0 < tol) (steps : Nat) (hsteps : f ≤ steps)
    (x : Vec f R) :
    (let x' := cgSolve (regularised (gram Y) reg) tol steps (entriesOf Y row) x
     (∑ j, Spec.residual Y row reg x' j ^ 2 < tol) ∧
      ((∀ j, j < f → tol ≤ ∑ a, Spec.residual Y row reg (cgRun Y row reg x j).x a ^ 2) →
        Spec.NormalEquations Y row reg x' ∧ Spec.IsOptimum Y row reg x')) := by
  have hA : PosDef (linearEquation (gram Y) reg (entriesOf Y row)).1 :=
    linearEquation_posDef Y row h.nodup h.lt hreg
  obtain ⟨m, hm, hz⟩ := state_terminates
    (b := (linearEquation (gram Y) reg (entriesOf Y row)).2) (x := x) hA
  have hz' : (cgRun Y row reg x m).r = 0 := by rw [cgRun_eq]; exact hz
  have hzero : (cgRun Y row reg x m).rsold = 0 := by
    rw [cgRun_eq, state_rs]
    have : (cgState (linearEquation (gram Y) reg (entriesOf Y row)).1
      (linearEquation (gram Y) reg (entriesOf Y row)).2 x m).r = 0 := hz
    rw [this]; exact dot_zero_right' _
  obtain ⟨k, hk, e, hstop, hbefore, _⟩ := cgSolve_run Y row reg tol steps x
  have hkm : k ≤ m := by
    by_contra hlt
    have := hbefore m (by omega)
    rw [hzero] at this
    exact absurd htol (not_lt.mpr this)
  simp only [e]
  have hlt : (cgRun Y row reg x k).rsold < tol := by
    rcases hstop with rfl | h'
    · have : k = m := by omega
      rw [this, hzero]; exact htol
    · exact h'
  refine ⟨by rw [← (C14_cg_residual Y row h reg x k).2]; exact hlt, fun hno => ?_⟩
  have hkf : k = m := by
    by_contra hne
    have := hno k (by omega)
    rw [← (C14_cg_residual Y row h reg x k).2] at this
    exact absurd hlt (not_lt.mpr this)
  have hres : Spec.residual Y row reg (cgRun Y row reg x k).x = 0 := by
    rw [← (C14_cg_residual Y row h reg x k).1, hkf, hz']
  rw [residual_eq Y row h] at hres
  have hsol := (sub_eq_zero.mp hres).symm
  exact ⟨(normalEquations_iff Y row h reg _).mpr hsol, isOptimum_of_solves Y row h hreg hsol⟩

/-- **C14** for a row of the native solver (with its shortcut for empty rows): it returns, and the new
factor is at most as bad as the previous one. -/
theorem C14_cg_row (Y : List (Vec f R)) (row : List (Nat × R)) (h : ValidRow Y.length row)
    {reg : R} (hreg : 0 < reg) (tol : R) (steps : Nat) (x : Vec f R) :
    ∃ x', cgRow (regularised (gram Y) reg) tol steps Y row x = .ok x' ∧
      Spec.rowLoss Y row reg x' ≤ Spec.rowLoss Y row reg x := by
  cases row with
  | nil =>
    refine ⟨fun _ => 0, rfl, ?_⟩
    have h0 : mulVec (linearEquation (gram Y) reg []).1 (fun _ => 0) =
        (linearEquation (gram Y) reg []).2 := by
      funext a
      rw [linearEquation_snd]
      exact dot_zero_right _
    by_cases hx : x = fun _ => 0
    · rw [hx]
    · exact (isOptimum_of_solves Y [] h hreg h0 x hx).le
  | cons e row =>
    refine ⟨_, ?_, (C14_cg_never_worse Y (e :: row) h hreg tol steps x).1⟩
    unfold cgRow
    rw [rowEntries_eq h.lt]
    rfl

/-- A concrete two-factor problem: two rounds reach the exact solution, one round does not. -/
example : (let Y : List (Vec 2 Rat) := [![1, 0], ![1, 1]]
    let row : List (Nat × Rat) := [(0, 3), (1, -2)]
    ValidRow Y.length row ∧
    (∑ j, Spec.residual Y row 1 (cgRun Y row 1 ![0, 0] 1).x j ^ 2 ≠ 0) ∧
    (cgRun Y row 1 ![0, 0] 2).x = ![9 / 14, -3 / 7]) := by
  refine ⟨⟨by simp, by simp⟩, by decide +kernel, by decide +kernel⟩

end Implicit
