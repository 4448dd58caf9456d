import Verif.Model.LMF
import Verif.Lemmas.ParallelALS

set_option linter.unusedSectionVars false

namespace Implicit

variable {R : Type} [LinearOrder R] [Field R] {f : Nat}

/-! ## The parallel loop as row tasks -/

/-- The addresses of row `u`. -/
def lmfOwn (f : Nat) (u : Nat) : Set (LmfCell f) :=
  {c | (∃ j, c = .factor u j) ∨ ∃ j, c = .sum u j}

theorem lmfOwn_disjoint (u v : Nat) (h : u ≠ v) : Disjoint (lmfOwn f u) (lmfOwn f v) := by
  rw [Set.disjoint_left]
  rintro a (⟨j, rfl⟩ | ⟨j, rfl⟩) (⟨k, hk⟩ | ⟨k, hk⟩) <;> cases hk <;> exact h rfl

/-- What a row task computes, from the memory. -/
def lmfTask (sigm sqrt : R → R) (eps lr reg : R) (pos : List (Vec f R × R)) (neg : List (Vec f R))
    (u : Nat) (m : LmfCell f → R) : LmfCell f → R
  | .factor _ j =>
    (lmfRow sigm sqrt eps lr reg pos neg (fun j => m (.factor u j)) (fun j => m (.sum u j))).1 j
  | .sum _ j =>
    (lmfRow sigm sqrt eps lr reg pos neg (fun j => m (.factor u j)) (fun j => m (.sum u j))).2 j

theorem lmf_run_pos (sigm sqrt : R → R) (eps lr reg : R) (pos : List (Vec f R × R)) (d : Vec f R)
    (m : LmfCell f → R) :
    runInstrs (lmfAct sigm sqrt eps lr reg) (pos.map .pos) d m = (pos.foldl lmfPositive d, m) := by
  induction pos generalizing d with
  | nil => rfl
  | cons e pos ih => exact ih (lmfPositive d e)

theorem lmf_run_posSig (sigm sqrt : R → R) (eps lr reg : R) (u : Nat) (pos : List (Vec f R × R))
    (d : Vec f R) (m : LmfCell f → R) :
    runInstrs (lmfAct sigm sqrt eps lr reg) (pos.map (.posSig u)) d m =
      (pos.foldl (lmfPositiveSig sigm fun j => m (.factor u j)) d, m) := by
  induction pos generalizing d with
  | nil => rfl
  | cons e pos ih => exact ih (lmfPositiveSig sigm (fun j => m (.factor u j)) d e)

theorem lmf_run_neg (sigm sqrt : R → R) (eps lr reg : R) (u : Nat) (neg : List (Vec f R))
    (d : Vec f R) (m : LmfCell f → R) :
    runInstrs (lmfAct sigm sqrt eps lr reg) (neg.map (.neg u)) d m =
      (neg.foldl (lmfNegative sigm fun j => m (.factor u j)) d, m) := by
  induction neg generalizing d with
  | nil => rfl
  | cons e neg ih => exact ih (lmfNegative sigm (fun j => m (.factor u j)) d e)

theorem lmf_run_last (sigm sqrt : R → R) (eps lr reg : R) (u : Nat) (js : List (Fin f))
    (hn : js.Nodup) (d : Vec f R) (m : LmfCell f → R) (j : Fin f) :
    let m' := (runInstrs (lmfAct sigm sqrt eps lr reg)
      (js.flatMap fun j => [.accumulate u j, .store u j]) d m).2
    let v := d j - reg * m (.factor u j)
    m' (.sum u j) = (if j ∈ js then m (.sum u j) + v * v else m (.sum u j)) ∧
    m' (.factor u j) = (if j ∈ js then
      m (.factor u j) + lr / sqrt (eps + (m (.sum u j) + v * v)) * v else m (.factor u j)) := by
  induction js generalizing d m with
  | nil => simp [runInstrs]
  | cons k js ih =>
    rw [List.nodup_cons] at hn
    intro m' v
    set vk := d k - reg * m (.factor u k) with hvk
    set d1 := Function.update d k vk with hd1
    set m1 := Function.update m (.sum u k) (m (.sum u k) + vk * vk) with hm1
    set m2 := Function.update m1 (.factor u k)
      (m1 (.factor u k) + lr / sqrt (eps + m1 (.sum u k)) * d1 k) with hm2
    have hm' : m' = (runInstrs (lmfAct sigm sqrt eps lr reg)
      (js.flatMap fun j => [.accumulate u j, .store u j]) d1 m2).2 := rfl
    obtain ⟨h1, h2⟩ := ih hn.2 d1 m2
    rw [← hm'] at h1 h2
    by_cases hk : j = k
    · subst hk
      rw [if_neg hn.1] at h1 h2
      rw [h1, h2]
      simp [hm2, hm1, hd1, v, hvk]
    · have e1 : d1 j = d j := Function.update_of_ne hk _ _
      have e2 : m2 (.factor u j) = m (.factor u j) := by
        rw [hm2, Function.update_of_ne (by simp [hk]), hm1, Function.update_of_ne (by simp)]
      have e3 : m2 (.sum u j) = m (.sum u j) := by
        rw [hm2, Function.update_of_ne (by simp), hm1, Function.update_of_ne (by simp [hk])]
      rw [h1, h2, e1, e2, e3]
      simp [hk, v]

theorem lmf_local (sigm sqrt : R → R) (eps lr reg : R) (pos : List (Vec f R × R))
    (neg : List (Vec f R)) (u : Nat) :
    ∀ i ∈ lmfProg pos neg u, LocalTo (lmfAct sigm sqrt eps lr reg) (lmfOwn f u) i := by
  have hfac : ∀ j, LmfCell.factor u j ∈ lmfOwn f u := fun j => Or.inl ⟨j, rfl⟩
  have hsum : ∀ j, LmfCell.sum u j ∈ lmfOwn f u := fun j => Or.inr ⟨j, rfl⟩
  intro i hi
  unfold lmfProg at hi
  split at hi
  · simp at hi
  · simp only [List.mem_append, List.mem_map, List.mem_cons, List.not_mem_nil, or_false,
      List.mem_flatMap] at hi
    rcases hi with (((rfl | ⟨e, _, rfl⟩) | ⟨e, _, rfl⟩) | ⟨y, _, rfl⟩) | ⟨j, _, rfl | rfl⟩
    · exact localTo_pure _ (fun s m => rfl)
    · exact localTo_pure _ (fun s m => rfl)
    · refine ⟨fun s m a _ => rfl, fun s m m' hm => ⟨?_, fun a ha => hm a ha⟩⟩
      have : (fun j => m (.factor u j)) = fun j => m' (.factor u j) :=
        funext fun j => hm _ (hfac j)
      show lmfPositiveSig sigm (fun j => m (.factor u j)) s e =
        lmfPositiveSig sigm (fun j => m' (.factor u j)) s e
      rw [this]
    · refine ⟨fun s m a _ => rfl, fun s m m' hm => ⟨?_, fun a ha => hm a ha⟩⟩
      have : (fun j => m (.factor u j)) = fun j => m' (.factor u j) :=
        funext fun j => hm _ (hfac j)
      show lmfNegative sigm (fun j => m (.factor u j)) s y =
        lmfNegative sigm (fun j => m' (.factor u j)) s y
      rw [this]
    · refine ⟨fun s m a ha => ?_, fun s m m' hm => ⟨?_, fun a ha => ?_⟩⟩
      · exact Function.update_of_ne (fun e => ha (by rw [e]; exact hsum j)) _ _
      · show Function.update s j (s j - reg * m (.factor u j)) =
          Function.update s j (s j - reg * m' (.factor u j))
        rw [hm _ (hfac j)]
      · show Function.update m (.sum u j) _ a = Function.update m' (.sum u j) _ a
        rw [hm _ (hfac j), hm _ (hsum j)]
        by_cases h : a = .sum u j
        · subst h; simp
        · rw [Function.update_of_ne h, Function.update_of_ne h, hm a ha]
    · refine ⟨fun s m a ha => ?_, fun s m m' hm => ⟨rfl, fun a ha => ?_⟩⟩
      · exact Function.update_of_ne (fun e => ha (by rw [e]; exact hfac j)) _ _
      · show Function.update m (.factor u j) _ a = Function.update m' (.factor u j) _ a
        rw [hm _ (hfac j), hm _ (hsum j)]
        by_cases h : a = .factor u j
        · subst h; simp
        · rw [Function.update_of_ne h, Function.update_of_ne h, hm a ha]

theorem lmf_effect (sigm sqrt : R → R) (eps lr reg : R) (pos : List (Vec f R × R))
    (neg : List (Vec f R)) (u : Nat) (d : Vec f R) (m : LmfCell f → R) (a : LmfCell f)
    (ha : a ∈ lmfOwn f u) :
    (runInstrs (lmfAct sigm sqrt eps lr reg) (lmfProg pos neg u) d m).2 a =
      lmfTask sigm sqrt eps lr reg pos neg u m a := by
  unfold lmfProg
  cases pos with
  | nil =>
    rcases ha with ⟨j, rfl⟩ | ⟨j, rfl⟩ <;> rfl
  | cons e pos =>
    simp only [List.isEmpty_cons, Bool.false_eq_true, if_false]
    rw [run_append, run_append, run_append, run_append]
    have h0 : runInstrs (lmfAct sigm sqrt eps lr reg) [.init] d m = (fun _ => 0, m) := rfl
    rw [h0]
    dsimp only
    rw [lmf_run_pos]
    dsimp only
    rw [lmf_run_posSig]
    dsimp only
    rw [lmf_run_neg]
    dsimp only
    rcases ha with ⟨j, rfl⟩ | ⟨j, rfl⟩
    · rw [(lmf_run_last sigm sqrt eps lr reg u _ (List.nodup_finRange f) _ m j).2]
      simp [lmfTask, lmfRow, lmfDeriv]
    · rw [(lmf_run_last sigm sqrt eps lr reg u _ (List.nodup_finRange f) _ m j).1]
      simp [lmfTask, lmfRow, lmfDeriv]

theorem lmf_taskSpec (sigm sqrt : R → R) (eps lr reg : R) (pos : Nat → List (Vec f R × R))
    (neg : Nat → List (Vec f R)) :
    TaskSpec (lmfAct sigm sqrt eps lr reg) (fun u => lmfProg (pos u) (neg u) u) (lmfOwn f)
      (fun _ => True) (fun u => lmfTask sigm sqrt eps lr reg (pos u) (neg u) u) where
  disjoint := lmfOwn_disjoint
  localTo := fun u => lmf_local sigm sqrt eps lr reg (pos u) (neg u) u
  effect := fun u d m _ => ⟨trivial, fun a ha => lmf_effect sigm sqrt eps lr reg _ _ u d m a ha⟩
  depends := by
    intro u m m' hm a ha
    have h1 : (fun j => m (.factor u j)) = fun j => m' (.factor u j) :=
      funext fun j => hm _ (Or.inl ⟨j, rfl⟩)
    have h2 : (fun j => m (.sum u j)) = fun j => m' (.sum u j) :=
      funext fun j => hm _ (Or.inr ⟨j, rfl⟩)
    rcases ha with ⟨j, rfl⟩ | ⟨j, rfl⟩ <;> simp only [lmfTask, h1, h2]

end Implicit
