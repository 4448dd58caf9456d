import Verif.Props.C91
/-!
# C91 — training with conjugate gradients in floating point, and examples
-/

set_option linter.unusedSectionVars false

namespace Implicit

open Spec (ValidRow)

variable {f : Nat}

section
variable {A : FloatOps ℝ} {P : BlasProducts f} {u : ℝ} (hA : A.Accurate u) (hP : P.Accurate u) (r : Rounding ℝ) (hr : r.u = u)
  (h0 : r.η = 0) {reg : ℝ} (hreg : 0 < reg) (hsmall : (1 + u) ^ (f + 2) ≤ 3 / 2) (tol : ℝ) (steps : Nat)

/-- The rows of a sweep. -/
theorem roundLeastSquaresCG_rows (C : SpRows ℝ) (X Y : List (Vec f ℝ)) (order : Fin f → Fin f → SumTree Y.length) {ends : List (CgEnd f)}
    (hends : roundLeastSquaresCG A P r tol steps C X Y order reg = .ok ends) :
    ends.length = X.length ∧ ∀ (i : Nat) (h : i < ends.length) (h' : i < X.length),
      ∃ row, C[i]? = some row ∧ roundCgRow A P r tol steps Y order reg row X[i] = .ok ends[i] := by
  obtain ⟨hl, hget⟩ := mapM_ok_iff hends
  rw [List.length_zipIdx] at hl
  refine ⟨hl, fun i h h' => ?_⟩
  obtain ⟨e, he, hi⟩ := hget i (X[i], i) (by simp [h'])
  rw [List.getElem?_eq_getElem h] at hi
  injection hi with hi
  dsimp only at he
  cases hc : C[i]? with
  | none => rw [hc] at he; cases he
  | some row =>
    rw [hc] at he
    rw [hi]
    exact ⟨row, rfl, he⟩

include hA hP hr h0 hreg hsmall

/-- **C91** (sweep).  Half an iteration of `fit`: the objective is as low as any choice of this side's factors can make it, up to the
residuals the solver reports and rounding. -/
theorem C91_users (C : SpRows ℝ) (X Y : List (Vec f ℝ)) (order : Fin f → Fin f → SumTree Y.length) (ho : ∀ a b, (order a b).Complete)
    (hv : ∀ row ∈ C, ValidRow Y.length row) {ends : List (CgEnd f)}
    (hends : roundLeastSquaresCG A P r tol steps C X Y order reg = .ok ends) {L : ℝ}
    (hL : ∀ (i : Nat) row x, C[i]? = some row → X[i]? = some x → ∀ j ≤ steps, ∀ e, roundCgRow A P r tol j Y order reg row x = .ok e →
      Spec.length e.x ≤ L) (Z : List (Vec f ℝ)) (hZ : Z.length = X.length) :
    Spec.objective C (ends.map CgEnd.x) Y reg ≤ Spec.objective C Z Y reg +
      ∑ i : Fin ends.length, (Spec.length ends[i].r + Spec.cgError u steps Y (C[i.1]?.getD []) reg L) ^ 2 / reg := by
  obtain ⟨hl, hrows⟩ := roundLeastSquaresCG_rows r tol steps C X Y order hends
  rw [objective_users, objective_users C Z]
  have key : ∀ (n : Nat) (hn : n = ends.length) (g : Fin n → ℝ),
      (∀ (i : Nat) (h1 : i < n) (h2 : i < Z.length) (h3 : i < ends.length), g ⟨i, h1⟩ ≤ Spec.rowLoss Y (C[i]?.getD []) reg Z[i] +
        (Spec.length ends[i].r + Spec.cgError u steps Y (C[i]?.getD []) reg L) ^ 2 / reg) →
      ∑ i, g i ≤ ∑ i : Fin Z.length, Spec.rowLoss Y (C[i.1]?.getD []) reg Z[i] +
        ∑ i : Fin ends.length, (Spec.length ends[i].r + Spec.cgError u steps Y (C[i.1]?.getD []) reg L) ^ 2 / reg := by
    intro n hn g hg
    subst hn
    exact sum_le_error (by omega) (fun i : Fin Z.length => Spec.rowLoss Y (C[i.1]?.getD []) reg Z[i]) g
      (fun i => (Spec.length ends[i].r + Spec.cgError u steps Y (C[i.1]?.getD []) reg L) ^ 2 / reg)
      (fun i h1 h2 => hg i h2 h1 h2)
  have := key (ends.map CgEnd.x).length (by simp) (fun i => Spec.rowLoss Y (C[i.1]?.getD []) reg (ends.map CgEnd.x)[i]) (by
    intro i h1 h2 h3
    obtain ⟨row, hc, hrun⟩ := hrows i h3 (by omega)
    have hrow := hv row (List.mem_of_getElem? hc)
    have h4 : (ends.map CgEnd.x)[i] = ends[i].x := by simp
    show Spec.rowLoss Y (C[i]?.getD []) reg (ends.map CgEnd.x)[i] ≤ _
    rw [h4, hc]
    exact C91_loss hA hP r hr h0 Y order ho hreg row hrow hsmall tol steps X[i] hrun
      (fun j hj e he => hL i row X[i] hc (List.getElem?_eq_getElem (by omega)) j hj e he) Z[i])
  linarith

end

/-! ## The assumptions can be met -/

/-- Sums from left to right. -/
theorem near_foldDot {A : FloatOps ℝ} {u : ℝ} (hA : A.Accurate u) (x y : Vec f ℝ) (l : List (Fin f)) {k : Nat} (hk : 1 ≤ k) {M c s : ℝ}
    (h : Near ((1 + u) ^ k) M c s) :
    Near ((1 + u) ^ (k + l.length)) (M + (l.map fun j => |x j| * |y j|).sum)
      (l.foldl (fun s j => A.add s (A.mul (x j) (y j))) c) (s + (l.map fun j => x j * y j).sum) := by
  induction l generalizing k M c s with
  | nil => simpa using h
  | cons j l ih =>
    have := ih (k := k + 1) (by omega) (near_add hA h (near_mul hA (near_self (x j) u) (near_self (y j) u) (m := 1) (by omega))
      (m := k + 1) (by omega) (by omega))
    simp only [List.map_cons, List.sum_cons, List.foldl_cons, List.length_cons, ← add_assoc] at this ⊢
    rw [show k + l.length + 1 = k + 1 + l.length by omega]
    exact this

theorem near_opsDot {A : FloatOps ℝ} {u : ℝ} (hA : A.Accurate u) (x y : Vec f ℝ) :
    Near ((1 + u) ^ (f + 1)) (∑ i, |x i| * |y i|) (A.dot x y) (dot x y) := by
  have h := near_foldDot hA x y (List.finRange f) (k := 1) le_rfl (M := 0) (c := A.zero) (s := 0) (by
    rw [hA.zero]
    exact ⟨one_le_growth hA.nonneg _, by simp, by simp⟩)
  rw [zero_add, zero_add, List.length_finRange, add_comm 1 f] at h
  unfold FloatOps.dot dot
  rw [Fin.sum_univ_def, Fin.sum_univ_def]
  exact h

/-- **C91** (assumptions).  Sums from left to right with rounded operations are accurate; with them the solver is the one of
`Verif.Model.FloatTraining` (`roundCgSolve_eq`). -/
theorem products_accurate {A : FloatOps ℝ} {u : ℝ} (hA : A.Accurate u) : (A.products (f := f)).Accurate u where
  dot x y := (near_opsDot hA x y).2.1
  symv G x a := (near_opsDot hA (lowerPart G a) x).2.1
  symvNeg G x a := by
    have h1 : Near ((1 + u) ^ 1) 1 A.negOne (-1) := by
      have := near_sub hA (near_self 0 u) (near_self 1 u) (m := 1) (by omega) (by omega)
      unfold FloatOps.negOne
      rw [hA.zero, hA.one]
      simpa using this
    have := (near_mul hA h1 (near_opsDot hA (lowerPart G a) x) (m := f + 3) (by omega)).2.1
    rw [one_mul, neg_one_mul] at this
    exact this

/-- Sums in any order. -/
noncomputable def treeProducts (r : Rounding ℝ) (t : SumTree f) (rows : Fin f → SumTree f) : BlasProducts f where
  dot x y := t.eval r x y
  symv G x := fun a => (rows a).eval r (lowerPart G a) x
  symvNeg G x := fun a => -(rows a).eval r (lowerPart G a) x

theorem treeProducts_accurate (r : Rounding ℝ) (h0 : r.η = 0) (t : SumTree f) (ht : t.Complete) (rows : Fin f → SumTree f)
    (hrows : ∀ a, (rows a).Complete) : (treeProducts r t rows).Accurate r.u := by
  have key : ∀ (t : SumTree f) (ht : t.Complete) (x y : Vec f ℝ) (k : Nat), f ≤ k →
      |t.eval r x y - dot x y| ≤ ((1 + r.u) ^ k - 1) * ∑ i, |x i| * |y i| := by
    intro t ht x y k hk
    have h := t.eval_error r x y
    rw [t.exact_complete ht, t.mass_complete ht, t.length_complete ht, h0, mul_zero, add_zero] at h
    simp only [abs_mul] at h
    refine h.trans (mul_le_mul_of_nonneg_right ?_ (Finset.sum_nonneg fun i _ => by positivity))
    have := growth_mono r.u_nonneg hk
    linarith
  refine ⟨fun x y => key t ht x y _ (by omega), fun G x a => key (rows a) (hrows a) _ _ _ (by omega), fun G x a => ?_⟩
  have := key (rows a) (hrows a) (lowerPart G a) x (f + 3) (by omega)
  show |-(rows a).eval r (lowerPart G a) x - -dot (lowerPart G a) x| ≤ _
  rw [← abs_neg]
  refine le_trans (le_of_eq ?_) this
  congr 1
  ring

/-- A machine whose results are always too large by one part in `2^24`. -/
noncomputable def biased : Rounding ℝ where
  rnd x := x * (1 + 1 / 2 ^ 24)
  u := 1 / 2 ^ 24
  η := 0
  u_nonneg := by positivity
  η_nonneg := le_rfl
  err x := by
    rw [add_zero, show x * (1 + 1 / 2 ^ 24) - x = 1 / 2 ^ 24 * x by ring, abs_mul, abs_of_pos (by positivity : (0 : ℝ) < 1 / 2 ^ 24)]

/-- One round of the solver on that machine (`c` is `1 + 2^-24`): one item with factor `1`, liked with confidence `3`, and
regularisation `1`. -/
theorem biased_round {c : ℝ} (hc : c = 1 + 1 / 2 ^ 24) (j : Nat) (hj : j ≤ 1) :
    ∃ e, roundCgRow (roundOps biased false) (roundOps biased false).products biased (1 / 10 ^ 20) j [fun _ : Fin 1 => 1]
        (fun _ _ => .leaf 0) 1 [(0, 3)] (fun _ => 0) = .ok e ∧ e.x = (fun _ => if j = 0 then 0 else 3 * c / (2 * (1 + c))) ∧
      e.r = fun _ => if j = 0 then 3 * c ^ 3 else 3 * c ^ 4 * (1 - c ^ 4) := by
  have hc0 : 0 < c := by rw [hc]; positivity
  obtain ⟨A, hA⟩ : ∃ A, A = roundOps biased false := ⟨_, rfl⟩
  have hrnd : ∀ x, biased.rnd x = x * c := fun x => by rw [hc]; rfl
  have hadd : ∀ a b, A.add a b = (a + b) * c := fun a b => by rw [hA]; exact hrnd _
  have hsub : ∀ a b, A.sub a b = (a - b) * c := fun a b => by rw [hA]; exact hrnd _
  have hmul : ∀ a b, A.mul a b = a * b * c := fun a b => by rw [hA]; exact hrnd _
  have hdiv : ∀ a b, A.div a b = a / b * c := fun a b => by rw [hA]; exact hrnd _
  have hax : ∀ t y s, A.axpy t y s = (s + t * y * c) * c := fun t y s => by
    rw [hA]
    show biased.rnd (s + biased.rnd (t * y)) = _
    rw [hrnd, hrnd]
  have hz : A.zero = 0 := by rw [hA]; rfl
  have ho : A.one = 1 := by rw [hA]; rfl
  have hlt : ∀ a b, A.lt a b = decide (a < b) := fun a b => by rw [hA]; rfl
  have hneg : A.negOne = -c := by
    unfold FloatOps.negOne
    rw [hsub, hz, ho]
    ring
  have hdot : ∀ x y : Vec 1 ℝ, A.dot x y = x 0 * y 0 * c ^ 2 := fun x y => by
    unfold FloatOps.dot
    simp only [List.finRange_succ, List.finRange_zero, List.map_nil, List.foldl_cons, List.foldl_nil, hadd, hmul, hz]
    ring
  obtain ⟨G, hG⟩ : ∃ G, G = A.regularised (roundGram biased [fun _ : Fin 1 => 1] (fun _ _ => .leaf 0)) 1 := ⟨_, rfl⟩
  have hG0 : ∀ a b, lowerPart G a b = 2 * c ^ 2 := by
    intro a b
    have ha : a = b := Subsingleton.elim _ _
    subst ha
    unfold lowerPart
    rw [if_pos le_rfl, hG]
    unfold FloatOps.regularised roundGram SumTree.eval
    rw [hadd, hmul, hrnd, ho, if_pos rfl]
    simp
    ring
  have hcon : ∀ v : Vec 1 ℝ, v = fun _ => v 0 := fun v => by
    funext a
    rw [Subsingleton.elim a 0]
  have hdot' : ∀ x y : Vec 1 ℝ, (A.products (f := 1)).dot x y = x 0 * y 0 * c ^ 2 := hdot
  have hsymv : ∀ x a, (A.products (f := 1)).symv G x a = 2 * c ^ 2 * x 0 * c ^ 2 := fun x a => by
    show A.dot (lowerPart G a) x = _
    rw [hdot, hG0]
  have hsymvN : ∀ x a, (A.products (f := 1)).symvNeg G x a = -c * (2 * c ^ 2 * x 0 * c ^ 2) * c := fun x a => by
    show A.mul A.negOne (A.dot (lowerPart G a) x) = _
    rw [hmul, hneg, hdot, hG0]
  have hres : roundCgResidual A A.products G [(fun _ => 1, 3)] (fun _ => 0) = fun _ => 3 * c ^ 3 := by
    funext a
    unfold roundCgResidual
    simp only [List.foldl_cons, List.foldl_nil, hlt, hz]
    rw [if_pos (by norm_num)]
    unfold FloatOps.axpyVec
    rw [hax, hsymvN, hsub, hmul, hdot']
    ring
  have happ : ∀ p : Vec 1 ℝ, roundCgApply A A.products G [(fun _ => 1, 3)] p = fun _ => 2 * c ^ 5 * (1 + c) * p 0 := by
    intro p
    funext a
    unfold roundCgApply
    simp only [List.foldl_cons, List.foldl_nil, hlt, hz]
    rw [if_neg (by norm_num)]
    unfold FloatOps.axpyVec
    rw [hax, hsymv, hmul, hsub, hdot', ho]
    ring
  have hrs : (A.products (f := 1)).dot (fun _ => 3 * c ^ 3) (fun _ => 3 * c ^ 3) = 9 * c ^ 8 := by
    rw [hdot']
    ring
  have hbig : ¬9 * c ^ 8 < 1 / 10 ^ 20 := by
    have : 1 ≤ c ^ 8 := one_le_pow₀ (by rw [hc]; norm_num)
    norm_num
    linarith
  have hsolve : ∀ j, roundCgSolve A A.products G (1 / 10 ^ 20) j [(fun _ => 1, 3)] (fun _ => 0) =
      roundCgLoop A A.products G [(fun _ => 1, 3)] (1 / 10 ^ 20) j ⟨fun _ => 0, fun _ => 3 * c ^ 3, fun _ => 3 * c ^ 3, 9 * c ^ 8⟩ := by
    intro j
    unfold roundCgSolve
    rw [hres]
    show (if A.lt ((A.products (f := 1)).dot (fun _ => 3 * c ^ 3) (fun _ => 3 * c ^ 3)) (1 / 10 ^ 20) = true then _ else
      roundCgLoop A A.products G _ _ j ⟨_, _, _, (A.products (f := 1)).dot (fun _ => 3 * c ^ 3) (fun _ => 3 * c ^ 3)⟩) = _
    rw [hrs, hlt, if_neg (by simpa using hbig)]
  refine ⟨roundCgSolve A A.products G (1 / 10 ^ 20) j [(fun _ => 1, 3)] (fun _ => 0), ?_, ?_⟩
  · rw [hG, hA]
    rfl
  rw [hsolve]
  rcases Nat.le_one_iff_eq_zero_or_eq_one.mp hj with rfl | rfl
  · exact ⟨rfl, rfl⟩
  · have hstep : ∀ e, e = roundCgLoop A A.products G [(fun _ => 1, 3)] (1 / 10 ^ 20) 1
        ⟨fun _ => 0, fun _ => 3 * c ^ 3, fun _ => 3 * c ^ 3, 9 * c ^ 8⟩ →
        e.x = (roundCgStep A A.products G [(fun _ => 1, 3)] ⟨fun _ => 0, fun _ => 3 * c ^ 3, fun _ => 3 * c ^ 3, 9 * c ^ 8⟩).x ∧
        e.r = (roundCgStep A A.products G [(fun _ => 1, 3)] ⟨fun _ => 0, fun _ => 3 * c ^ 3, fun _ => 3 * c ^ 3, 9 * c ^ 8⟩).r := by
      intro e he
      subst he
      rw [roundCgLoop]
      split_ifs <;> exact ⟨rfl, rfl⟩
    have h1c : 1 + c ≠ 0 := by positivity
    have hc' : c ≠ 0 := hc0.ne'
    rw [(hstep _ rfl).1, (hstep _ rfl).2]
    unfold roundCgStep
    simp only [happ, hdot', hdiv, hmul, hneg]
    constructor
    · funext a
      unfold FloatOps.axpyVec
      rw [hax, if_neg (by norm_num)]
      field_simp
      ring
    · funext a
      unfold FloatOps.axpyVec
      rw [hax, if_neg (by norm_num)]
      field_simp
      ring

/-- The best factor is `3/4`; the computed one differs from it, by no more than the theorem says. -/
example : ∃ e, roundCgRow (roundOps biased false) (roundOps biased false).products biased (1 / 10 ^ 20) 1 [fun _ : Fin 1 => 1]
      (fun _ _ => .leaf 0) 1 [(0, 3)] (fun _ => 0) = .ok e ∧ e.x ≠ (fun _ => 3 / 4) ∧
    Spec.length (e.x - fun _ => 3 / 4) ≤ 1 / 1000 := by
  have hl1 : ∀ c : ℝ, Spec.length (fun _ : Fin 1 => c) = |c| := fun c => by
    unfold Spec.length
    simp [Real.sqrt_sq_eq_abs]
  obtain ⟨e, he, hx, hres⟩ := biased_round rfl 1 le_rfl
  refine ⟨e, he, ?_, ?_⟩
  · rw [hx]
    intro h
    have := congrFun h 0
    norm_num at this
  have hT : Spec.systemSize [fun _ : Fin 1 => (1 : ℝ)] [(0, 3)] 1 = 6 := by
    unfold Spec.systemSize
    simp [hl1]
    norm_num
  have hB : Spec.targetSize [fun _ : Fin 1 => (1 : ℝ)] [(0, 3)] = 3 := by
    unfold Spec.targetSize
    simp [hl1]
  have := C91_factor (roundOps_accurate biased rfl false) (products_accurate (roundOps_accurate biased rfl false)) biased rfl rfl
    [fun _ : Fin 1 => 1] (fun _ _ => .leaf 0) (fun _ _ => by unfold SumTree.Complete; decide) one_pos [(0, 3)] ⟨by simp, by simp⟩
    (by unfold biased; norm_num) (1 / 10 ^ 20) 1 (fun _ => 0) he (X := 1) (by
      intro j hj e' he'
      obtain ⟨e'', he'', hx'', -⟩ := biased_round rfl j hj
      rw [he''] at he'
      injection he' with he'
      rw [← he', hx'', hl1]
      split_ifs <;> norm_num) (z := fun _ => 3 / 4) (by
      intro a
      simp [Spec.confidence, Spec.preference]
      norm_num)
  refine this.trans ?_
  rw [hres, hl1]
  unfold Spec.cgError
  rw [hT, hB]
  unfold biased
  norm_num [abs_of_nonpos]

end Implicit
