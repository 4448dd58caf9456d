import Verif.Lemmas.Settle
import Mathlib.Algebra.Order.Archimedean.Basic
/-!
# C64 — ALS training settles

C13 says that the objective never increases.  Here: how far the factors can move in total, that they stay
bounded, which factors training leaves alone, and that the gradient of the objective gets small.  All for
any number of iterations from any starting factors and for the four solvers of `fit`
(`implicit/cpu/als.py:161-196,417-422`).
-/

namespace Implicit

set_option linter.unusedSectionVars false

variable {R : Type} [LinearOrder R] [Field R] [IsStrictOrderedRing R] {f : Nat}

open Spec (ValidRow)

/-- **C64** (bounded).  With any solver, no factor matrix seen by the callback is larger than the starting
objective allows. -/
theorem C64_bounded (S : Solver f R) (tol : R) (p : ALSParams R) {reg : R} (hreg : 0 < reg)
    (C : SpRows R) (n : Nat) (m : Factors f R) (hC : C.length = m.user.length)
    (hv : ∀ row ∈ C, ValidRow m.item.length row) :
    ∃ trace, alsTrace (alsSolver S tol p) C (transposeRows m.item.length C) reg n m = .ok trace ∧
      trace.length = n ∧ ∀ m' ∈ trace,
        reg * (Spec.sqNorm m'.user + Spec.sqNorm m'.item) ≤ Spec.objective C m.user m.item reg := by
  obtain ⟨trace, e, hl, hp, _⟩ := C13_training S tol p hreg C n m hC hv
  refine ⟨trace, e, hl, fun m' hm' => ?_⟩
  exact (norm_le_objective C m'.user m'.item reg).trans ((List.pairwise_cons.mp hp).1 m' hm')

/-- **C64** (movement).  With the direct solvers the squared distances between the factors of successive
iterations sum up to at most the decrease of the objective divided by the regularisation, for any number
of iterations; and after each iteration the gradient with respect to the item factors is zero. -/
theorem C64_movement (S : Solver f R) (tol : R) (p : ALSParams R) (hcg : p.useCg = false)
    {reg : R} (hreg : 0 < reg) (C : SpRows R) (n : Nat) (m : Factors f R)
    (hC : C.length = m.user.length) (hv : ∀ row ∈ C, ValidRow m.item.length row) :
    ∃ trace, alsTrace (alsSolver S tol p) C (transposeRows m.item.length C) reg n m = .ok trace ∧
      trace.length = n ∧
      reg * (((m :: trace).zip trace).map fun s =>
          Spec.sqDist s.1.user s.2.user + Spec.sqDist s.1.item s.2.item).sum ≤
        Spec.objective C m.user m.item reg -
          Spec.objective C (trace.getLastD m).user (trace.getLastD m).item reg ∧
      ∀ m' ∈ trace, ∀ i, Spec.itemGradient C m'.user m'.item reg i = 0 := by
  have hs := alsSolver_exact S tol p hcg hreg
  obtain ⟨trace, e, hl, hP, _, hsum⟩ := trace_gain
    (solver := alsSolver S tol p) (C := C) (Ct := transposeRows m.item.length C) (reg := reg)
    (fun m' => m'.user.length = m.user.length ∧ m'.item.length = m.item.length)
    (fun m' => Spec.objective C m'.user m'.item reg)
    (fun a b => reg * (Spec.sqDist a.user b.user + Spec.sqDist a.item b.item))
    (fun _ b => ∀ i, Spec.itemGradient C b.user b.item reg i = 0)
    (by
      rintro a ⟨h1, h2⟩
      obtain ⟨X', e1, hl1, _, hd1⟩ := exact_users hs C a.user a.item (by omega) (by rw [h2]; exact hv)
      obtain ⟨Y', e2, hl2, hg2, hd2⟩ := exact_items hs C X' a.item (by omega) (by rw [h2]; exact hv)
      refine ⟨⟨X', Y'⟩, ?_, ⟨by simp [hl1, h1], by simp [hl2, h2]⟩, hg2, ?_⟩
      · unfold alsIteration
        rw [e1]
        simp only [bind, Except.bind]
        rw [h2] at e2
        rw [e2]
        rfl
      · simp only
        linarith)
    n m ⟨rfl, rfl⟩
  refine ⟨trace, e, hl, ?_, ?_⟩
  · rw [← List.sum_map_mul_left]
    linarith
  · intro m' hm'
    obtain ⟨k, hk, rfl⟩ := List.getElem_of_mem hm'
    have hz : k < ((m :: trace).zip trace).length := by simp; omega
    have := hP _ (List.getElem_mem hz)
    rw [List.getElem_zip] at this
    exact this

theorem normal_unique (Y : List (Vec f R)) (row : List (Nat × R)) {reg : R} (hreg : 0 < reg)
    {x z : Vec f R} (hx : Spec.NormalEquations Y row reg x) (hz : Spec.NormalEquations Y row reg z) :
    z = x := by
  have h1 := rowLoss_growth Y row hx z
  have h2 := rowLoss_growth Y row hz x
  have h3 : ∑ j, (x j - z j) ^ 2 = ∑ j, (z j - x j) ^ 2 := Finset.sum_congr rfl fun j _ => by ring
  have h4 : 0 ≤ ∑ j, (z j - x j) ^ 2 := Finset.sum_nonneg fun _ _ => sq_nonneg _
  have h5 : ∑ j, (z j - x j) ^ 2 = 0 := by
    rw [h3] at h2
    have : reg * ∑ j, (z j - x j) ^ 2 ≤ 0 := by linarith
    nlinarith
  funext j
  have := (Finset.sum_eq_zero_iff_of_nonneg fun j _ => sq_nonneg (z j - x j)).mp h5 j (Finset.mem_univ j)
  exact sub_eq_zero.mp (pow_eq_zero_iff (two_ne_zero)|>.mp this)

/-- **C64** (fixed points).  With the direct solvers an iteration leaves the factors as they are exactly
when the gradient of the objective is zero. -/
theorem C64_fixed_points (S : Solver f R) (tol : R) (p : ALSParams R) (hcg : p.useCg = false)
    {reg : R} (hreg : 0 < reg) (C : SpRows R) (m : Factors f R)
    (hC : C.length = m.user.length) (hv : ∀ row ∈ C, ValidRow m.item.length row) :
    alsIteration (alsSolver S tol p) C (transposeRows m.item.length C) reg m = .ok m ↔
      Spec.Stationary C m.user m.item reg := by
  have hs := alsSolver_exact S tol p hcg hreg
  obtain ⟨X', e1, hl1, hg1, _⟩ := exact_users hs C m.user m.item hC hv
  obtain ⟨Y', e2, hl2, hg2, _⟩ := exact_items hs C X' m.item (by omega) hv
  have e : alsIteration (alsSolver S tol p) C (transposeRows m.item.length C) reg m = .ok ⟨X', Y'⟩ := by
    unfold alsIteration
    rw [e1]
    simp only [bind, Except.bind]
    rw [e2]
    rfl
  rw [e]
  constructor
  · intro h
    have h' : (⟨X', Y'⟩ : Factors f R) = m := by cases h; rfl
    subst h'
    exact ⟨hg1, hg2⟩
  · rintro ⟨hu, hi⟩
    have hX : X' = m.user := by
      apply List.ext_getElem hl1
      intro u h1 h2
      have a1 := hg1 ⟨u, h1⟩
      have a2 := hu ⟨u, h2⟩
      rw [userGradient_eq, ← normalEquations_residual] at a1 a2
      exact normal_unique m.item _ hreg a2 a1
    subst hX
    have hY : Y' = m.item := by
      apply List.ext_getElem hl2
      intro i h1 h2
      have a1 := hg2 ⟨i, h1⟩
      have a2 := hi ⟨i, h2⟩
      rw [itemGradient_eq C m.user Y' reg m.item.length hl2.symm (by rw [hl2]; exact hv),
        ← normalEquations_residual] at a1
      rw [itemGradient_eq C m.user m.item reg m.item.length rfl hv, ← normalEquations_residual] at a2
      exact normal_unique m.user _ hreg a2 a1
    subst hY
    rfl

namespace Spec

/-- At the start of the iteration from `a` to `b` some user, or after its first half some item, has a
gradient with squared length at least `eps`. -/
def Unsettled (C : List (List (Nat × R))) (reg eps : R) (a b : Factors f R) : Prop :=
  (∃ u, eps ≤ ∑ j, userGradient C a.user a.item reg u j ^ 2) ∨
    ∃ i, eps ≤ ∑ j, itemGradient C b.user a.item reg i j ^ 2

instance (C : List (List (Nat × R))) (reg eps : R) (a b : Factors f R) :
    Decidable (Unsettled C reg eps a b) := by
  unfold Unsettled; infer_instance

end Spec

theorem div_le_of_bound {eps d K N B reg : R} (hreg : 0 < reg) (hK : 0 ≤ K) (hN : 0 ≤ N)
    (hB : reg * N ≤ B) (he : 0 < eps) (hd : eps ≤ d) : eps / (K * (B / reg) + reg) ≤ d / (K * N + reg) := by
  have h1 : N ≤ B / reg := by rw [le_div_iff₀ hreg]; linarith
  have h2 : K * N ≤ K * (B / reg) := mul_le_mul_of_nonneg_left h1 hK
  have h3 : 0 ≤ K * N := mul_nonneg hK hN
  exact div_le_div₀ (he.le.trans hd) hd (by linarith) (by linarith)

/-- **C64** (gradient).  With any of the four solvers, at least one CG step, and any `eps > 0` (not below
the tolerance of CG): the number of iterations in which some gradient has squared length `eps` or more is
bounded by a number that does not depend on how many iterations are run. -/
theorem C64_gradient (S : Solver f R) (tol : R) (p : ALSParams R) {reg : R} (hreg : 0 < reg)
    (C : SpRows R) (n : Nat) (m : Factors f R) (hC : C.length = m.user.length)
    (hv : ∀ row ∈ C, ValidRow m.item.length row) {K : R} (hK1 : 1 ≤ K)
    (hK : ∀ row ∈ C, ∀ e ∈ row, |e.2| ≤ K) {eps : R} (heps : 0 < eps)
    (hcg : p.useCg = true → 1 ≤ p.cgSteps ∧ tol ≤ eps) :
    ∃ trace, alsTrace (alsSolver S tol p) C (transposeRows m.item.length C) reg n m = .ok trace ∧
      trace.length = n ∧
      eps * (((m :: trace).zip trace).countP fun s => Spec.Unsettled C reg eps s.1 s.2 : Nat) ≤
        (K * (Spec.objective C m.user m.item reg / reg) + reg) *
          Spec.objective C m.user m.item reg := by
  have hs := alsSolver_decreasing S tol p (fun h => (hcg h).1) hreg
  have htol : (if p.useCg then tol else 0) ≤ eps := by
    split_ifs with h
    · exact (hcg h).2
    · exact heps.le
  obtain ⟨B, hB⟩ : ∃ B, B = Spec.objective C m.user m.item reg := ⟨_, rfl⟩
  have hK0 : (0 : R) ≤ K := zero_le_one.trans hK1
  have hB0 : 0 ≤ B := by
    rw [hB]
    exact le_trans (mul_nonneg hreg.le (add_nonneg (sqNorm_nonneg _) (sqNorm_nonneg _)))
      (norm_le_objective C m.user m.item reg)
  have hL0 : 0 < K * (B / reg) + reg := by
    have := mul_nonneg hK0 (div_nonneg hB0 hreg.le)
    linarith
  obtain ⟨trace, e, hl, _, _, hsum⟩ := trace_gain
    (solver := alsSolver S tol p) (C := C) (Ct := transposeRows m.item.length C) (reg := reg)
    (fun m' => m'.user.length = m.user.length ∧ m'.item.length = m.item.length ∧
      Spec.objective C m'.user m'.item reg ≤ B)
    (fun m' => Spec.objective C m'.user m'.item reg)
    (fun a b => if Spec.Unsettled C reg eps a b then eps / (K * (B / reg) + reg) else 0)
    (fun _ _ => True)
    (by
      rintro a ⟨h1, h2, h3⟩
      obtain ⟨X', e1, hl1, hle1, hd1⟩ := decreasing_users hs C a.user a.item (by omega)
        (by rw [h2]; exact hv) hK1 hK
      obtain ⟨Y', e2, hl2, hle2, hd2⟩ := decreasing_items hs C X' a.item (by omega)
        (by rw [h2]; exact hv) hK1 hK
      refine ⟨⟨X', Y'⟩, ?_, ⟨by simp [hl1, h1], by simp [hl2, h2], (hle2.trans hle1).trans h3⟩,
        trivial, ?_⟩
      · unfold alsIteration
        rw [e1]
        simp only [bind, Except.bind]
        rw [h2] at e2
        rw [e2]
        rfl
      · simp only
        split_ifs with hun
        · rcases hun with ⟨u, hu⟩ | ⟨i, hi⟩
          · have := hd1 u (htol.trans hu)
            have := div_le_of_bound hreg hK0 (sqNorm_nonneg a.item) (B := B) (by
              have h4 := norm_le_objective C a.user a.item reg
              have h5 := mul_nonneg hreg.le (sqNorm_nonneg a.user)
              linarith) heps hu
            linarith
          · have := hd2 i (htol.trans hi)
            have := div_le_of_bound hreg hK0 (sqNorm_nonneg X') (B := B) (by
              have h4 := norm_le_objective C X' a.item reg
              have h5 := mul_nonneg hreg.le (sqNorm_nonneg a.item)
              linarith) heps hi
            linarith
        · linarith)
    n m ⟨rfl, rfl, hB.ge⟩
  refine ⟨trace, e, hl, ?_⟩
  rw [← hB] at hsum ⊢
  have hcount : ∀ l : List (Factors f R × Factors f R),
      (l.map fun s => if Spec.Unsettled C reg eps s.1 s.2 then eps / (K * (B / reg) + reg) else 0).sum =
        ((l.countP fun s => Spec.Unsettled C reg eps s.1 s.2 : Nat) : R) *
          (eps / (K * (B / reg) + reg)) := by
    intro l
    induction l with
    | nil => simp
    | cons s l ih =>
      rw [List.map_cons, List.sum_cons, ih, List.countP_cons]
      by_cases h : Spec.Unsettled C reg eps s.1 s.2
      · simp only [h, if_true, decide_true]; push_cast; ring
      · simp only [h, if_false, decide_false]; simp
  rw [hcount] at hsum
  have hlast : 0 ≤ Spec.objective C (trace.getLastD m).user (trace.getLastD m).item reg :=
    le_trans (mul_nonneg hreg.le (add_nonneg (sqNorm_nonneg _) (sqNorm_nonneg _)))
      (norm_le_objective C _ _ reg)
  have h6 : ((((m :: trace).zip trace).countP fun s => Spec.Unsettled C reg eps s.1 s.2 : Nat) : R) *
      (eps / (K * (B / reg) + reg)) ≤ B := by linarith
  rw [← mul_div_assoc, div_le_iff₀ hL0] at h6
  linarith

theorem alsTrace_take {solver : SweepFn f R} {C Ct : SpRows R} {reg : R} {a b : Nat} (hab : b ≤ a)
    {m : Factors f R} {t : List (Factors f R)} (h : alsTrace solver C Ct reg a m = .ok t) :
    alsTrace solver C Ct reg b m = .ok (t.take b) := by
  induction b generalizing a m t with
  | zero => simp [alsTrace]
  | succ b ih =>
    obtain ⟨a, rfl⟩ : ∃ a', a = a' + 1 := ⟨a - 1, by omega⟩
    unfold alsTrace at h ⊢
    cases hi : alsIteration solver C Ct reg m with
    | error e => rw [hi] at h; cases h
    | ok m' =>
      rw [hi] at h
      simp only [bind, Except.bind, pure, Except.pure] at h ⊢
      cases ht : alsTrace solver C Ct reg a m' with
      | error e => rw [ht] at h; cases h
      | ok t' =>
        rw [ht] at h
        have : t = m' :: t' := by cases h; rfl
        subst this
        rw [ih (by omega) ht]
        rfl

theorem steps_take {α : Type} (m : α) (t : List α) (b : Nat) :
    (m :: t.take b).zip (t.take b) = ((m :: t).zip t).take b := by
  induction t generalizing m b with
  | nil => simp
  | cons x t ih =>
    cases b with
    | zero => simp
    | succ b => rw [List.take_succ_cons, List.zip_cons_cons, List.zip_cons_cons, List.take_succ_cons, ih]

theorem bounded_attained (c : Nat → Nat) (B : Nat) (h : ∀ n, c n ≤ B) : ∃ N, ∀ n, c n ≤ c N := by
  induction B with
  | zero => exact ⟨0, fun n => by have := h n; omega⟩
  | succ B ih =>
    by_cases hx : ∃ N, c N = B + 1
    · obtain ⟨N, hN⟩ := hx
      exact ⟨N, fun n => by rw [hN]; exact h n⟩
    · refine ih fun n => ?_
      have h1 := h n
      have h2 : c n ≠ B + 1 := fun h => hx ⟨n, h⟩
      omega

/-- **C64** (eventually).  Hence from some iteration on all gradients stay below `eps`, however long
training goes on. -/
theorem C64_eventually [Archimedean R] (S : Solver f R) (tol : R) (p : ALSParams R) {reg : R}
    (hreg : 0 < reg) (C : SpRows R) (m : Factors f R) (hC : C.length = m.user.length)
    (hv : ∀ row ∈ C, ValidRow m.item.length row) {eps : R} (heps : 0 < eps)
    (hcg : p.useCg = true → 1 ≤ p.cgSteps ∧ tol ≤ eps) :
    ∃ N, ∀ n, ∃ trace,
      alsTrace (alsSolver S tol p) C (transposeRows m.item.length C) reg n m = .ok trace ∧
      trace.length = n ∧
      ∀ k, N ≤ k → ∀ a b, (m :: trace)[k]? = some a → (m :: trace)[k + 1]? = some b →
        (∀ u, ∑ j, Spec.userGradient C a.user a.item reg u j ^ 2 < eps) ∧
          ∀ i, ∑ j, Spec.itemGradient C b.user a.item reg i j ^ 2 < eps := by
  -- a bound on the stored values
  obtain ⟨K, hK1, hK⟩ : ∃ K : R, 1 ≤ K ∧ ∀ row ∈ C, ∀ e ∈ row, |e.2| ≤ K := by
    refine ⟨1 + ((C.flatten).map fun e => |e.2|).sum, ?_, ?_⟩
    · have : 0 ≤ ((C.flatten).map fun e => |e.2|).sum :=
        List.sum_nonneg (by simp only [List.mem_map]; rintro _ ⟨e, _, rfl⟩; exact abs_nonneg _)
      linarith
    · intro row hrow e he
      have : |e.2| ≤ ((C.flatten).map fun e => |e.2|).sum :=
        List.single_le_sum (by simp only [List.mem_map]; rintro _ ⟨e, _, rfl⟩; exact abs_nonneg _) _
          (List.mem_map.mpr ⟨e, List.mem_flatten.mpr ⟨row, hrow, he⟩, rfl⟩)
      linarith
  have hall := fun n => C64_gradient S tol p hreg C n m hC hv hK1 hK heps hcg
  choose T hT hlen hcnt using hall
  obtain ⟨B, hB⟩ := exists_nat_ge
    ((K * (Spec.objective C m.user m.item reg / reg) + reg) * Spec.objective C m.user m.item reg / eps)
  have hb : ∀ n, (((m :: T n).zip (T n)).countP fun s => Spec.Unsettled C reg eps s.1 s.2) ≤ B := by
    intro n
    have h1 := hcnt n
    rw [mul_comm, ← le_div_iff₀ heps] at h1
    exact_mod_cast h1.trans hB
  obtain ⟨N, hN⟩ := bounded_attained _ B hb
  refine ⟨N, fun n => ⟨T n, hT n, hlen n, fun k hk a b ha hb' => ?_⟩⟩
  by_contra hcon
  have hbad : Spec.Unsettled C reg eps a b := by
    unfold Spec.Unsettled
    by_contra h
    simp only [not_or, not_exists, not_le] at h
    exact hcon h
  have hkn : k < (T n).length := by
    have := (List.getElem?_eq_some_iff.mp hb').1
    simpa using this
  have hkn' : k < n := by rw [hlen] at hkn; exact hkn
  -- the first `k + 1` and the first `N` iterations
  have t1 : T (k + 1) = (T n).take (k + 1) := by
    have := alsTrace_take (show k + 1 ≤ n by omega) (hT n)
    rw [hT (k + 1)] at this
    injection this
  have t2 : T N = (T n).take N := by
    have := alsTrace_take (show N ≤ n by omega) (hT n)
    rw [hT N] at this
    injection this
  have h1 := hN (k + 1)
  rw [t1, t2, steps_take, steps_take] at h1
  have hz : k < ((m :: T n).zip (T n)).length := by simp; omega
  have hel : ((m :: T n).zip (T n))[k] = (a, b) := by
    rw [List.getElem_zip]
    have e1 := (List.getElem?_eq_some_iff.mp ha).2
    have e2 := (List.getElem?_eq_some_iff.mp hb').2
    rw [List.getElem_cons_succ] at e2
    rw [e1, e2]
  rw [List.take_succ_eq_append_getElem hz, List.countP_append, hel, List.countP_singleton] at h1
  simp only [hbad, decide_true, if_true] at h1
  have h2 : (((m :: T n).zip (T n)).take N).countP (fun s => Spec.Unsettled C reg eps s.1 s.2) ≤
      (((m :: T n).zip (T n)).take k).countP fun s => Spec.Unsettled C reg eps s.1 s.2 :=
    List.Sublist.countP_le (List.take_sublist_take_left hk)
  omega

/-! ## Examples -/

/-- One user and one item with confidence 4 and regularisation 3: the factors 1/2 and 1/2 are a stationary
point (not the trivial one), so training with the direct solver leaves them alone. -/
example : alsIteration (alsSolver (scalarSolver Rat) 0 ⟨3, 1, true, false, 3, 15⟩) [[(0, 4)]]
      (transposeRows 1 [[(0, 4)]]) 3 ⟨[![1 / 2]], [![1 / 2]]⟩ = .ok ⟨[![1 / 2]], [![1 / 2]]⟩ ∧
    Spec.Stationary [[(0, 4)]] [![(1 / 2 : Rat)]] [![1 / 2]] 3 := by
  have h := C64_fixed_points (scalarSolver Rat) 0 ⟨3, 1, true, false, 3, 15⟩ rfl (reg := 3) (by norm_num)
    [[(0, 4)]] ⟨[![1 / 2]], [![1 / 2]]⟩ rfl (by
      intro row hrow
      simp only [List.mem_singleton] at hrow
      subst hrow
      exact ⟨by simp, by simp⟩)
  have hs : Spec.Stationary [[(0, 4)]] [![(1 / 2 : Rat)]] [![1 / 2]] 3 := by
    unfold Spec.Stationary
    decide +kernel
  exact ⟨h.mpr hs, hs⟩

/-- From other factors the same training moves them (to 4/7 and 112/211) and the objective pays for it: three
times the squared distance is at most its decrease. -/
example : (alsIteration (alsSolver (scalarSolver Rat) 0 ⟨3, 1, true, false, 3, 15⟩) [[(0, 4)]]
      (transposeRows 1 [[(0, 4)]]) 3 ⟨[![1]], [![1]]⟩).toOption.any (fun m =>
        m.user.map (· 0) = [4 / 7] ∧ 0 < Spec.sqDist [![1]] m.user ∧
        3 * (Spec.sqDist [![1]] m.user + Spec.sqDist [![1]] m.item) ≤
          Spec.objective [[(0, 4)]] [![1]] [![1]] 3 - Spec.objective [[(0, 4)]] m.user m.item 3) = true := by
  decide +kernel

/-- The hypotheses of `C64_eventually` can be met, with the default solver (CG with 3 steps, tolerance
`1e-20`), positive and negative values and an empty row. -/
example : ∃ N, ∀ n, ∃ trace, alsTrace (alsSolver (exactSolver 2 Rat) (1 / 10 ^ 20)
      ⟨1 / 100, 1, true, true, 3, 15⟩) [[(0, 3), (1, -2)], []]
      (transposeRows 2 [[(0, 3), (1, -2)], []]) (1 / 100) n
      ⟨[![1, 2], ![3, 4]], [![1, 0], ![0, 1]]⟩ = .ok trace ∧ trace.length = n ∧
      ∀ k, N ≤ k → ∀ a b, (⟨[![1, 2], ![3, 4]], [![1, 0], ![0, 1]]⟩ :: trace)[k]? = some a →
        (⟨[![1, 2], ![3, 4]], [![1, 0], ![0, 1]]⟩ :: trace)[k + 1]? = some b →
        (∀ u, ∑ j, Spec.userGradient (R := Rat) [[(0, 3), (1, -2)], []] a.user a.item (1 / 100) u j ^ 2 <
          1 / 10 ^ 20) ∧
        ∀ i, ∑ j, Spec.itemGradient (R := Rat) [[(0, 3), (1, -2)], []] b.user a.item (1 / 100) i j ^ 2 <
          1 / 10 ^ 20 :=
  C64_eventually (exactSolver 2 Rat) (1 / 10 ^ 20) ⟨1 / 100, 1, true, true, 3, 15⟩ (by norm_num)
    [[(0, 3), (1, -2)], []] ⟨[![1, 2], ![3, 4]], [![1, 0], ![0, 1]]⟩ rfl (by
      intro row hrow
      simp only [List.mem_cons, List.not_mem_nil, or_false] at hrow
      rcases hrow with rfl | rfl
      · exact ⟨by simp, by simp⟩
      · exact ⟨by simp, by simp⟩) (by norm_num) (fun _ => ⟨by norm_num, le_refl _⟩)

/-- **C64** (the limits of the tolerance).  With CG the fixed points are not exactly the stationary points:
a gradient whose squared length is below the tolerance is left alone.  Here the tolerance is `1e-20` as in
the code, and the factors are off by `1e-12`. -/
theorem C64_cg_keeps_small_gradients :
    ∃ m : Factors 1 Rat,
      alsIteration (alsSolver (scalarSolver Rat) (1 / 10 ^ 20) ⟨3, 1, true, true, 3, 15⟩) [[(0, 4)]]
        (transposeRows 1 [[(0, 4)]]) 3 m = .ok m ∧
      ¬ Spec.Stationary [[(0, 4)]] m.user m.item 3 := by
  refine ⟨⟨[![1 / 2]], [![1 / 2 + 1 / 10 ^ 12]]⟩, ?_, ?_⟩
  · have h : (alsIteration (alsSolver (scalarSolver Rat) (1 / 10 ^ 20) ⟨3, 1, true, true, 3, 15⟩)
        [[(0, 4)]] (transposeRows 1 [[(0, 4)]]) 3 ⟨[![1 / 2]], [![1 / 2 + 1 / 10 ^ 12]]⟩).toOption.any
        (fun m => m.user = [![1 / 2]] ∧ m.item = [![1 / 2 + 1 / 10 ^ 12]]) = true := by
      decide +kernel
    cases hc : alsIteration (alsSolver (scalarSolver Rat) (1 / 10 ^ 20) ⟨3, 1, true, true, 3, 15⟩)
        [[(0, 4)]] (transposeRows 1 [[(0, 4)]]) 3 ⟨[![1 / 2]], [![1 / 2 + 1 / 10 ^ 12]]⟩ with
    | error e => rw [hc] at h; cases h
    | ok m =>
      rw [hc] at h
      simp only [Except.toOption, Option.any_some, decide_eq_true_eq] at h
      obtain ⟨X, Y⟩ := m
      obtain ⟨rfl, rfl⟩ := h
      rfl
  · unfold Spec.Stationary
    decide +kernel

end Implicit
