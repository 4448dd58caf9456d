import Verif.Props.C94Exact
import Verif.Props.C94Float
/-!
# C94 — examples
-/

namespace Implicit

open Spec (Within)

/-- With one kind of numbers the row is the one of `FloatTraining`. -/
example {f : Nat} {V : Type} (A : FloatOps V) (sigm sqrt : V → V) (eps lr reg : V) :
    mixedLmfRow (f := f) A A id sigm sqrt eps lr reg = A.lmfRow sigm sqrt eps lr reg := rfl

theorem lmfUpdateWith_eq {V : Type} {f : Nat} (A : FloatOps V) (sigm sqrt : V → V) (eps lr reg : V) (negProp : Int) (C : SpRows V)
    (Y : List (Vec f V)) (draws : Nat → Nat → Nat) (side : LmfSide f V) :
    lmfUpdateWith (mixedLmfRow A A id sigm sqrt eps lr reg) negProp C Y draws side = A.lmfUpdate sigm sqrt eps lr reg negProp C Y draws side := by
  have h : ∀ (u : Nat) (x : Vec f V), lmfRowAtWith (mixedLmfRow A A id sigm sqrt eps lr reg) negProp C Y draws side.sums u x =
      A.lmfRowAt sigm sqrt eps lr reg negProp C Y draws side.sums u x := fun u x => by
    unfold lmfRowAtWith FloatOps.lmfRowAt
    cases C[u]? <;> cases side.sums[u]? <;> rfl
  unfold lmfUpdateWith FloatOps.lmfUpdate
  simp only [h]

theorem lmfEpochsWith_eq {V : Type} {factors : Nat} (A : FloatOps V) (sigm sqrt : V → V) (eps lr reg : V) (negProp : Int) (C Ct : SpRows V) :
    ∀ (draws : List LmfDraws) (st : LmfState (factors + 2) V),
      lmfEpochsWith A (mixedLmfRow A A id sigm sqrt eps lr reg) negProp C Ct draws st = A.lmfEpochs sigm sqrt eps lr reg negProp C Ct draws st
  | [], _ => rfl
  | d :: ds, st => by
    unfold lmfEpochsWith FloatOps.lmfEpochs lmfEpochWith FloatOps.lmfEpoch
    simp only [lmfUpdateWith_eq, lmfEpochsWith_eq A sigm sqrt eps lr reg negProp C Ct ds]

/-- With one kind of numbers, `fit` is the one of `FloatTraining`. -/
theorem lmfRefitWith_eq {V : Type} {factors : Nat} (A : FloatOps V) (sigm sqrt : V → V) (eps lr reg : V) (negProp : Int) (cols : Nat) (C : SpRows V)
    (draws : List LmfDraws) (m : Factors (factors + 2) V) :
    lmfRefitWith A (mixedLmfRow A A id sigm sqrt eps lr reg) negProp cols C draws m = A.lmfRefit sigm sqrt eps lr reg negProp cols C draws m := by
  unfold lmfRefitWith FloatOps.lmfRefit
  rw [lmfEpochsWith_eq]

/-- Three users and two items, in IEEE arithmetic with the defaults of `LogisticMatrixFactorization`. -/
example : ∃ m', limitLmfFit (factors := 1) (ieee 24 (-149)) (ieee 53 (-1074)) ((2 - 1 / 2 ^ 23) * 2 ^ 127) ((2 - 1 / 2 ^ 52) * 2 ^ 1023) Real.exp
      (1 / 10 ^ 6) 1 (6 / 10) 30 2 [[(0, some 1), (1, some 2)], [], [(1, some 999999)]] (List.replicate 30 ⟨fun _ k => k % 3, fun _ k => k % 2⟩)
      ⟨[fun _ => some 1, fun _ => some 0, fun _ => some (-3)], [fun _ => some 2, fun _ => some 1]⟩ = .ok m' ∧
    (∀ x ∈ m'.user, ∀ a, Within 41 (x a)) ∧ ∀ x ∈ m'.item, ∀ a, Within 41 (x a) := by
  obtain ⟨h1, h2, h3, h4, h5, h6, h7, h8⟩ := float_sizes
  obtain ⟨m', e1, -, -, e2, e3⟩ := C94_float (factors := 1) h1 h2 h3 h4 h5 h6 h7 h8 (ex := Real.exp) (fun x => (Real.exp_pos x).le)
    (fun x hx => Real.exp_le_one_iff.mpr hx) (eps := 1 / 10 ^ 6) (lr := 1) (reg := 6 / 10) (by norm_num) (by norm_num) le_rfl
    (by rw [abs_of_nonneg (by norm_num)]; norm_num) (by norm_num) (negProp := 30) (cols := 2)
    (C := [[(0, some 1), (1, some 2)], [], [(1, some 999999)]]) (by
      intro row hrow e he
      simp only [List.mem_cons, List.not_mem_nil, or_false] at hrow
      rcases hrow with rfl | rfl | rfl
      · simp only [List.mem_cons, List.not_mem_nil, or_false] at he
        rcases he with rfl | rfl
        · exact ⟨by norm_num, 1, rfl, by norm_num⟩
        · exact ⟨by norm_num, 2, rfl, by norm_num⟩
      · simp at he
      · simp only [List.mem_cons, List.not_mem_nil, or_false] at he
        rw [he]
        exact ⟨by norm_num, 999999, rfl, by norm_num⟩) (by simp) (by simp [transposeRows, List.range_succ])
    (draws := List.replicate 30 ⟨fun _ k => k % 3, fun _ k => k % 2⟩) (by simp)
    (fun d hd u k => by
      rw [List.eq_of_mem_replicate hd]
      simp only [List.flatten_cons, List.cons_append, List.nil_append, List.flatten_nil, List.length_cons, List.length_nil]
      omega)
    (m := ⟨[fun _ => some 1, fun _ => some 0, fun _ => some (-3)], [fun _ => some 2, fun _ => some 1]⟩) rfl rfl
    (by simp [Within]; norm_num [abs_le]) (by simp [Within]; norm_num)
  exact ⟨m', e1, e2, e3⟩

/-- Exact numbers: two epochs with learning rate `1/2`, a huge weight, and a first factor `7` that ends between `6` and `8`. -/
example : ∃ st, lmfFit (factors := 1) (fun x => x) Real.sqrt (1 / 10 ^ 6) (1 / 2) (6 / 10) 30 1 [[(0, (10 : ℝ) ^ 100)]] (fun _ _ => 0) (fun _ _ => 0)
      (some [fun _ => 3]) (some [fun _ => 7]) [⟨fun _ _ => 0, fun _ _ => 0⟩, ⟨fun _ _ => 0, fun _ _ => 0⟩] = .ok st ∧
    ∀ x, st.user.factors[0]? = some x → 6 ≤ x 0 ∧ x 0 ≤ 8 := by
  obtain ⟨st, h, -⟩ := lmfEpochs_total (factors := 1) (R := ℝ) (fun x => x) Real.sqrt (1 / 10 ^ 6) (1 / 2) (6 / 10) 30 1 [[(0, (10 : ℝ) ^ 100)]]
    (by simp) [⟨fun _ _ => 0, fun _ _ => 0⟩, ⟨fun _ _ => 0, fun _ _ => 0⟩] (by simp [Spec.nnz, Spec.columns])
    ⟨⟨[fun _ => 7], List.replicate 1 fun _ => 0⟩, ⟨[fun _ => 3], List.replicate 1 fun _ => 0⟩⟩ rfl (by simp) rfl (by simp)
  refine ⟨st, h, fun x hx => ?_⟩
  obtain ⟨y, hy, hm⟩ := (C94_exact (by norm_num) (show lmfFit (factors := 1) (fun x => x) Real.sqrt (1 / 10 ^ 6) (1 / 2) (6 / 10) 30 1
    [[(0, (10 : ℝ) ^ 100)]] (fun _ _ => 0) (fun _ _ => 0) (some [fun _ => 3]) (some [fun _ => 7])
    [⟨fun _ _ => 0, fun _ _ => 0⟩, ⟨fun _ _ => 0, fun _ _ => 0⟩] = .ok st from h)).1 0 x hx
  cases hy
  have := abs_le.mp (hm 0 (by decide))
  norm_num [abs_of_pos] at this
  constructor <;> linarith [this.1, this.2]

end Implicit
