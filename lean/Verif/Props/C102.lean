import Verif.Lemmas.RangeALS
import Verif.Spec.AlsRange
import Verif.Props.C85
import Verif.Props.C90Sweep
/-!
# C102 — ALS with the direct solver does not overflow in the stated range, and its factors stay bounded
-/

set_option linter.unusedSectionVars false

namespace Implicit

open Spec (ValidRow)

variable {f : Nat}

/-- Arithmetic of the bound for a computed factor. -/
theorem bounded_factor {reg B W g δ z x t d : ℝ} (hreg : 0 < reg) (hB : 0 ≤ B) (hW : 4 * W ≤ reg * B ^ 2) (hg : g * W ≤ reg / 4)
    (hg0 : 0 ≤ g) (hδ0 : 0 ≤ δ) (hδ : δ ≤ reg / 4) (hz0 : 0 ≤ z) (hz : reg * z ^ 2 ≤ W) (ht : t ≤ W * B)
    (hd : d ≤ (δ * z + g * t) / (reg - δ)) (hx : x ≤ d + z) : x ≤ B := by
  have hzB : 2 * z ≤ B := by
    have h1 : reg * (2 * z) ^ 2 ≤ reg * B ^ 2 := by nlinarith
    exact abs_le_of_sq_le_sq' (le_of_mul_le_mul_left h1 hreg) hB |>.2
  have hpos : 0 < reg - δ := by linarith
  rw [le_div_iff₀ hpos] at hd
  have h2 : g * t ≤ reg / 4 * B := by
    have := mul_le_mul_of_nonneg_left ht hg0
    have h3 := mul_le_mul_of_nonneg_right hg hB
    linarith
  have h3 : δ * z ≤ reg / 4 * (B / 2) := mul_le_mul hδ (by linarith) hz0 (by linarith)
  have h4 : d ≤ B / 2 := by
    by_contra hcon
    rw [not_le] at hcon
    have h5 : 3 / 4 * reg * (B / 2) ≤ (reg - δ) * (B / 2) := mul_le_mul_of_nonneg_right (by linarith) (by linarith)
    have h6 : (reg - δ) * (B / 2) < (reg - δ) * d := mul_lt_mul_of_pos_left hcon hpos
    linarith
  linarith

theorem gain_nonneg (c : ℝ) : 0 ≤ gain c := by
  unfold gain
  split_ifs with h
  · exact h.le
  · exact le_rfl

theorem abs_component_le (x : Vec f ℝ) (a : Fin f) : |x a| ≤ Spec.length x := by
  refine abs_le_of_sq_le_sq ?_ (length_nonneg x)
  rw [length_sq_sum]
  exact Finset.single_le_sum (f := fun i => x i ^ 2) (fun i _ => sq_nonneg _) (Finset.mem_univ a)

theorem getD_mem_or_zero (Y : List (Vec f ℝ)) {B : ℝ} (hB : 0 ≤ B) (hY : ∀ y ∈ Y, Spec.length y ≤ B) (i : Nat) :
    Spec.length (Y[i]?.getD 0 : Vec f ℝ) ≤ B := by
  cases h : Y[i]? with
  | none => simpa [length_zero] using hB
  | some y => simpa using hY y (List.mem_of_getElem? h)

/-- The computed matrix is at least half the regularisation. -/
theorem coercive_half {Y : List (Vec f ℝ)} {reg F : ℝ} {es : List (Vec f ℝ × ℝ)} {S : Mat f ℝ × Vec f ℝ} (hF : 1 ≤ F) (hreg : 0 ≤ reg)
    (hM : ∀ a b, Near F (rowSize Y reg es a b) (S.1 a b) ((linearEquation (gram Y) reg es).1 a b))
    (hco : ∀ x, reg * dot x x ≤ dot x (mulVec (linearEquation (gram Y) reg es).1 x))
    (hsmall : (F - 1) * traceSize Y reg es ≤ reg / 4) (v : Vec f ℝ) : reg / 2 * dot v v ≤ dot v (mulVec (lowerPart S.1) v) := by
  have h1 := hco v
  have h2 := length_lowerPart hF hreg hM v
  have h3 : |dot v (mulVec (lowerPart S.1) v - mulVec (linearEquation (gram Y) reg es).1 v)| ≤ (F - 1) * traceSize Y reg es * dot v v := by
    refine (abs_dot_le_length _ _).trans ((mul_le_mul_of_nonneg_left h2 (length_nonneg v)).trans (le_of_eq ?_))
    rw [← length_sq_dot]
    ring
  rw [dot_sub_right] at h3
  have h4 := (abs_le.mp h3).1
  have h6 : 0 ≤ dot v v := by
    rw [← length_sq_dot]
    positivity
  have h7 := mul_le_mul_of_nonneg_right hsmall h6
  have h8 := mul_nonneg hreg h6
  linarith

section sizes
variable {Y : List (Vec f ℝ)} {row : List (Nat × ℝ)} {reg B T W : ℝ} {n : Nat} (hreg : 0 < reg) (hB : 0 ≤ B) (hn : Y.length ≤ n)
  (hY : ∀ y ∈ Y, Spec.length y ≤ B) (hT : (row.map fun e => |e.2| + 1).sum ≤ T)

include hreg hB hn hY hT

theorem systemSize_le : Spec.systemSize Y row reg ≤ Spec.alsSize f n T B reg := by
  unfold Spec.systemSize Spec.alsSize
  have h1 : (Y.map fun y => Spec.length y ^ 2).sum ≤ n * B ^ 2 := by
    refine (list_sum_le Y _ (fun _ => B ^ 2) fun y hy => pow_le_pow_left₀ (length_nonneg y) (hY y hy) 2).trans ?_
    rw [List.map_const', List.sum_replicate, nsmul_eq_mul]
    exact mul_le_mul_of_nonneg_right (by exact_mod_cast hn) (sq_nonneg B)
  have h2 : (row.map fun e => (|e.2| + 1) * Spec.length (Y[e.1]?.getD 0 : Vec f ℝ) ^ 2).sum ≤ T * B ^ 2 := by
    refine (list_sum_le row _ (fun e => (|e.2| + 1) * B ^ 2) fun e _ => ?_).trans ?_
    · exact mul_le_mul_of_nonneg_left (pow_le_pow_left₀ (length_nonneg _) (getD_mem_or_zero Y hB hY e.1) 2) (by positivity)
    · rw [list_sum_mul_right']
      exact mul_le_mul_of_nonneg_right hT (sq_nonneg B)
  linarith

theorem rowSize_le (a b : Fin f) : rowSize Y reg (row.map fun e => ((Y[e.1]?.getD 0 : Vec f ℝ), e.2)) a b ≤ Spec.alsSize f n T B reg := by
  unfold rowSize sizeMat Spec.alsSize
  rw [List.map_map]
  have hf : (1 : ℝ) ≤ f := by exact_mod_cast (show 1 ≤ f from Nat.one_le_iff_ne_zero.mpr (by rintro rfl; exact a.elim0))
  have hprod : ∀ y : Vec f ℝ, Spec.length y ≤ B → |y a| * |y b| ≤ B ^ 2 := fun y hy => by
    rw [sq]
    exact mul_le_mul ((abs_component_le y a).trans hy) ((abs_component_le y b).trans hy) (abs_nonneg _) hB
  have h1 : (Y.map fun y => |y a| * |y b|).sum ≤ n * B ^ 2 := by
    refine (list_sum_le Y _ (fun _ => B ^ 2) fun y hy => hprod y (hY y hy)).trans ?_
    rw [List.map_const', List.sum_replicate, nsmul_eq_mul]
    exact mul_le_mul_of_nonneg_right (by exact_mod_cast hn) (sq_nonneg B)
  have h2 : (row.map ((fun e : Vec f ℝ × ℝ => (|e.2| + 1) * |e.1 a| * |e.1 b|) ∘ fun e => ((Y[e.1]?.getD 0 : Vec f ℝ), e.2))).sum ≤ T * B ^ 2 := by
    refine (list_sum_le row _ (fun e => (|e.2| + 1) * B ^ 2) fun e _ => ?_).trans ?_
    · simp only [Function.comp]
      rw [mul_assoc]
      exact mul_le_mul_of_nonneg_left (hprod _ (getD_mem_or_zero Y hB hY e.1)) (by positivity)
    · rw [list_sum_mul_right']
      exact mul_le_mul_of_nonneg_right hT (sq_nonneg B)
  have h3 : |reg| * (if a = b then (1 : ℝ) else 0) ≤ reg * f := by
    rw [abs_of_pos hreg]
    refine mul_le_mul_of_nonneg_left ?_ hreg.le
    split_ifs <;> linarith
  linarith

theorem targets_le (a : Fin f) : ((row.map fun e => ((Y[e.1]?.getD 0 : Vec f ℝ), e.2)).map fun e => gain e.2 * |e.1 a|).sum ≤ T * B := by
  rw [List.map_map]
  refine (list_sum_le row _ (fun e => (|e.2| + 1) * B) fun e _ => ?_).trans ?_
  · simp only [Function.comp]
    refine mul_le_mul ?_ ((abs_component_le _ a).trans (getD_mem_or_zero Y hB hY e.1)) (abs_nonneg _) (by positivity)
    unfold gain
    split_ifs
    · linarith [le_abs_self e.2]
    · positivity
  · rw [list_sum_mul_right']
    exact mul_le_mul_of_nonneg_right hT hB

end sizes

theorem targetSize_le {Y : List (Vec f ℝ)} {row : List (Nat × ℝ)} {B W : ℝ} (hB : 0 ≤ B) (hY : ∀ y ∈ Y, Spec.length y ≤ B)
    (hW : Spec.liked row ≤ W) : Spec.targetSize Y row ≤ W * B := by
  unfold Spec.targetSize
  refine (list_sum_le row _ (fun e => (if 0 < e.2 then e.2 else 0) * B) fun e _ => ?_).trans ?_
  · exact mul_le_mul_of_nonneg_left (getD_mem_or_zero Y hB hY e.1) (gain_nonneg e.2)
  · rw [list_sum_mul_right']
    exact mul_le_mul_of_nonneg_right hW hB

section
variable {r : Rounding ℝ} (h0 : r.η = 0) (fused : Bool) {Ω κ P reg T W B : ℝ} {n m : Nat} (hR : Spec.AlsRange r.u κ P f n m T W B reg)
  (hP : P ≤ Ω) {posv : Mat f (Option ℝ) → Vec f (Option ℝ) → Option (Vec f (Option ℝ))} {p : Mat f ℝ → Vec f ℝ → Option (Vec f ℝ)}
  (hp : RangeSolver κ P (reg / 2) posv p)

include h0 hR hP hp

/-- **C102** (row).  One row of the direct solver (also `recalculate_user` and `partial_fit`): nothing overflows, no error is raised, the
vector is the one of the model without a largest number (to which C90 applies), and it is no longer than `B`. -/
theorem C102_row (order : GramOrder f) (ho : ∀ n h a b, (order n h a b).Complete) (Y : List (Vec f ℝ))
    (hY0 : 0 < Y.length) (hn : Y.length ≤ n) (hY : ∀ y ∈ Y, Spec.length y ≤ B) (row : List (Nat × ℝ)) (hrow : ValidRow Y.length row) (hm : row.length ≤ m)
    (hT : (row.map fun e => |e.2| + 1).sum ≤ T) (hW : Spec.liked row ≤ W) :
    ∃ x, rangeLeastSquaresRow r fused Ω posv order (Y.map known) reg row = .ok (known x) ∧
      roundLeastSquaresRow (roundOps r fused) r p Y (order _ hY0) reg row = .ok x ∧ Spec.length x ≤ B := by
  have hreg := hR.reg_pos
  have hB := hR.length_nonneg
  have hA := roundOps_accurate r h0 fused
  have hu : 1 ≤ 1 + r.u := by linarith [r.u_nonneg]
  have hκ := hp.stable.nonneg
  obtain ⟨g, hg⟩ : ∃ g, g = Spec.systemGrowth r.u Y.length row.length := ⟨_, rfl⟩
  obtain ⟨δ, hδ⟩ : ∃ δ, δ = (g + κ * (1 + g)) * Spec.systemSize Y row reg := ⟨_, rfl⟩
  have hg0 : 0 ≤ g := by
    rw [hg]
    unfold Spec.systemGrowth
    linarith [one_le_growth hA.nonneg (Y.length + row.length + 5)]
  have hgG : g ≤ Spec.systemGrowth r.u n m := by
    rw [hg]
    unfold Spec.systemGrowth
    linarith [growth_mono hA.nonneg (show Y.length + row.length + 5 ≤ n + m + 5 by omega)]
  have hsize := systemSize_le (reg := reg) hreg hB hn hY hT
  have hsize0 : 0 ≤ Spec.systemSize Y row reg := by
    unfold Spec.systemSize
    refine add_nonneg (add_nonneg (by positivity) (List.sum_nonneg ?_)) (List.sum_nonneg ?_)
    · intro a ha
      obtain ⟨y, -, rfl⟩ := List.mem_map.mp ha
      positivity
    · intro a ha
      obtain ⟨e, -, rfl⟩ := List.mem_map.mp ha
      positivity
  have hco0 : 0 ≤ g + κ * (1 + g) := add_nonneg hg0 (mul_nonneg hκ (by linarith))
  have hδ0 : 0 ≤ δ := hδ ▸ mul_nonneg hco0 hsize0
  have hδr : δ ≤ reg / 4 := by
    rw [hδ]
    refine le_trans (mul_le_mul ?_ hsize hsize0 ?_) hR.small
    · have := mul_le_mul_of_nonneg_left (add_le_add_right hgG 1) hκ
      linarith
    · exact hco0.trans (by
        have := mul_le_mul_of_nonneg_left (add_le_add_right hgG 1) hκ
        linarith)
  have hW0 : 0 ≤ W := by
    refine le_trans (List.sum_nonneg ?_) hW
    intro a ha
    obtain ⟨e, -, rfl⟩ := List.mem_map.mp ha
    exact gain_nonneg e.2
  -- the exact solution
  have hpd := linearEquation_posDef Y row hrow.nodup hrow.lt hreg
  obtain ⟨z, hz⟩ := posDef_solvable hpd (linearEquation (gram Y) reg (row.map fun e => (Y[e.1]?.getD 0, e.2))).2
  have hz' := (normalEquations_iff Y row hrow reg z).mpr hz
  have hzb := (solution_bounds hrow hreg hz').1
  obtain ⟨x, hx, hxz⟩ := C90_total hA r rfl h0 hp.stable Y (order _ hY0) (ho _ hY0) hreg row hrow hz' hg hδ (by linarith)
  have hlen : Spec.length x ≤ B := by
    refine bounded_factor hreg hB hR.mass ((mul_le_mul_of_nonneg_right hgG hW0).trans hR.target) hg0 hδ0 hδr (length_nonneg z) ?_
      (targetSize_le hB hY hW) hxz ?_
    · rw [length_sq_sum]
      exact hzb.trans hW
    · have := length_add_le (x - z) z
      rwa [sub_add_cancel] at this
  refine ⟨x, ?_, hx, hlen⟩
  unfold roundLeastSquaresRow FloatOps.leastSquaresRow at hx
  unfold rangeLeastSquaresRow FloatOps.leastSquaresRow
  rw [List.isEmpty_map]
  split_ifs at hx ⊢ with he
  · injection hx with hx
    rw [← hx]
    rfl
  rw [rowEntries_eq hrow.lt] at hx
  have hent : ∀ l : List (Nat × ℝ), (∀ e ∈ l, e.1 < Y.length) → rowEntries .undefinedBehaviour (Y.map known) (l.map fun e => (e.1, some e.2)) =
      .ok ((l.map fun e => ((Y[e.1]?.getD 0 : Vec f ℝ), e.2)).map fun e => (known e.1, some e.2)) := by
    intro l hl
    induction l with
    | nil => rfl
    | cons e l ih =>
      have h1 := hl e (by simp)
      simp only [List.map_cons]
      unfold rowEntries
      rw [List.getElem?_map, List.getElem?_eq_getElem h1]
      simp only [Option.map_some, Option.getD_some, ih fun e he => hl e (by simp [he])]
      rfl
  rw [hent row hrow.lt]
  obtain ⟨es, hes⟩ : ∃ es, es = row.map fun e => ((Y[e.1]?.getD 0 : Vec f ℝ), e.2) := ⟨_, rfl⟩
  have hT1 : ∀ e ∈ row, |e.2| + 1 ≤ T := fun e he => (List.single_le_sum (fun x hx => by
    obtain ⟨e, -, rfl⟩ := List.mem_map.mp hx
    positivity) _ (List.mem_map.mpr ⟨e, he, rfl⟩)).trans hT
  have hT0 : 0 ≤ T := by
    refine le_trans (List.sum_nonneg ?_) hT
    intro x hx
    obtain ⟨e, -, rfl⟩ := List.mem_map.mp hx
    positivity
  have hS0 : 0 ≤ Spec.alsSize f n T B reg := hsize0.trans hsize
  -- everything is at most `P`
  have hbig : ∀ (k : Nat) (M : ℝ), k ≤ Y.length + row.length + 5 → M ≤ Spec.alsSize f n T B reg + T * (1 + B) → (1 + r.u) ^ k * M ≤ P := by
    intro k M hk hM
    refine le_trans ?_ hR.range
    have h1 : (1 + r.u) ^ k ≤ 1 + Spec.systemGrowth r.u n m := by
      have := growth_mono hA.nonneg (show k ≤ n + m + 5 by omega)
      unfold Spec.systemGrowth
      linarith
    have h2 : 0 ≤ (1 + r.u) ^ k := pow_nonneg (by linarith) _
    exact (mul_le_mul_of_nonneg_left hM h2).trans (mul_le_mul_of_nonneg_right h1 (by positivity))
  have hrs := fun a b => rowSize_le (reg := reg) hreg hB hn hY hT a b
  have hts := fun a => targets_le (reg := reg) hreg hB hn hY hT a
  rw [← hes] at hrs hts hx ⊢
  have hlen_es : es.length = row.length := by rw [hes, List.length_map]
  have hTB : 0 ≤ T * B := mul_nonneg hT0 hB
  have hexp : T * (1 + B) = T + T * B := by ring
  have hsum0 : ∀ a b, 0 ≤ (es.map fun e => (|e.2| + 1) * |e.1 a| * |e.1 b|).sum := fun a b => List.sum_nonneg (by
    intro x hx
    obtain ⟨e, -, rfl⟩ := List.mem_map.mp hx
    positivity)
  have hsm : ∀ a b, sizeMat Y reg a b ≤ Spec.alsSize f n T B reg := fun a b => by
    have := hrs a b
    unfold rowSize at this
    linarith [hsum0 a b]
  have hcomp : ∀ e ∈ es, |e.2| + 1 ≤ T ∧ ∀ a, |e.1 a| ≤ B := by
    intro e he
    rw [hes] at he
    obtain ⟨e', he', rfl⟩ := List.mem_map.mp he
    exact ⟨hT1 e' he', fun a => (abs_component_le _ a).trans (getD_mem_or_zero Y hB hY e'.1)⟩
  have hgram : rangeGram r Ω order (Y.map known) = fun a => known (roundGram r Y (order _ hY0) a) := by
    funext a b
    refine rangeGram_eq h0 Y hY0 order ho (fun a b => (hbig Y.length _ (by omega) ?_).trans hP) a b
    have := hsm a b
    unfold sizeMat at this
    have h1 : 0 ≤ |reg| * (if a = b then (1 : ℝ) else 0) := mul_nonneg (abs_nonneg _) (by split_ifs <;> norm_num)
    linarith
  have hnear := near_regularised hA r rfl h0 Y (order _ hY0) (ho _ hY0) reg
  have hregd : (rangeOps r fused Ω).regularised (rangeGram r Ω order (Y.map known)) (some reg) =
      fun a => known ((roundOps r fused).regularised (roundGram r Y (order _ hY0)) reg a) := by
    rw [hgram]
    refine funext fun a => ?_
    have hf : (1 : ℝ) ≤ f := by exact_mod_cast (show 1 ≤ f from Nat.one_le_iff_ne_zero.mpr (by rintro rfl; exact a.elim0))
    refine congrFun (range_regularised h0 fused _ ?_ fun a b => ?_) a
    · have h2 : (1 + r.u) ^ 1 * |reg| ≤ P := hbig 1 _ (by omega) (by
        have h1 := hsm a a
        unfold sizeMat at h1
        rw [if_pos rfl, mul_one] at h1
        have h3 : 0 ≤ (Y.map fun y => |y a| * |y a|).sum := List.sum_nonneg (by
          intro x hx
          obtain ⟨e, -, rfl⟩ := List.mem_map.mp hx
          positivity)
        linarith)
      rw [pow_one] at h2
      exact h2.trans hP
    · refine (hnear.1 a b).abs_le.trans ((hbig _ _ (by omega) ?_).trans hP)
      linarith [hsm a b]
  have hfold := range_foldl h0 fused es (by omega) hnear
    (Ω := Ω) (fun e he => (hbig 5 _ (by omega) (by linarith [(hcomp e he).1])).trans hP)
    (fun e he a => (hbig 5 _ (by omega) (by
      have := mul_le_mul (hcomp e he).1 ((hcomp e he).2 a) (abs_nonneg _) hT0
      linarith)).trans hP)
    (fun a b => (hbig _ _ (by rw [hlen_es]; omega) (by
      have := hrs a b
      unfold rowSize at this
      linarith)).trans hP)
    (fun a => (hbig _ _ (by rw [hlen_es]; omega) (by
      have := hts a
      linarith)).trans hP) hA
  obtain ⟨S, hS⟩ : ∃ S, S = es.foldl (roundOps r fused).accumulate ((roundOps r fused).regularised (roundGram r Y (order _ hY0)) reg,
    fun _ => (roundOps r fused).zero) := ⟨_, rfl⟩
  rw [← hS] at hfold
  have hfold' : (es.map fun e => (known e.1, some e.2)).foldl (rangeOps r fused Ω).accumulate
      ((rangeOps r fused Ω).regularised (rangeGram r Ω order (Y.map known)) (some reg), fun _ => (rangeOps r fused Ω).zero) =
      (fun a => known (S.1 a), known S.2) := by
    rw [hregd]
    exact hfold
  have hpv : p S.1 S.2 = some x := by
    simp only [bind, Except.bind, ← hS] at hx
    cases h : p S.1 S.2 with
    | none => rw [h] at hx; cases hx
    | some z => rw [h] at hx; injection hx with hx; rw [hx]
  obtain ⟨hM, hBn⟩ := near_system hA r rfl h0 Y (order _ hY0) (ho _ hY0) reg es hS
  have hag : posv (fun a => known (S.1 a)) (known S.2) = (p S.1 S.2).map known := by
    refine hp.agrees S.1 S.2 (fun a b => (hM a b).abs_le.trans (hbig _ _ (by rw [hlen_es]) ?_))
      (fun a => (hBn a).abs_le.trans (hbig _ _ (by rw [hlen_es]) ?_)) fun v => ?_
    · linarith [hrs a b]
    · linarith [hts a]
    · have h1 := linearEquation_coercive Y row hrow.nodup hrow.lt reg
      rw [← hes] at h1
      have htr : traceSize Y reg es = Spec.systemSize Y row reg := by rw [hes, traceSize_eq]
      refine coercive_half (one_le_growth hA.nonneg _) hreg.le hM h1 ?_ v
      rw [htr, hlen_es]
      refine le_trans (mul_le_mul_of_nonneg_right ?_ hsize0) (hδ ▸ hδr)
      have h2 := mul_nonneg hκ (show 0 ≤ 1 + g by linarith)
      have h3 : (1 + r.u) ^ (Y.length + row.length + 5) - 1 = g := hg.symm
      linarith
  simp only [bind, Except.bind, hfold', hag, hpv, Option.map_some]
  rfl

/-- **C102** (sweep).  One half of an iteration: whatever the old factors `X` were (also infinite or NaN), all new factors are finite and no
longer than `B`, and row `i` is the answer of the model of C90. -/
theorem C102_sweep (order : GramOrder f) (ho : ∀ n h a b, (order n h a b).Complete) (C : SpRows ℝ)
    (X : List (Vec f (Option ℝ))) (hX : X.length = C.length) (Y : List (Vec f ℝ)) (hY0 : 0 < Y.length) (hn : Y.length ≤ n) (hY : ∀ y ∈ Y, Spec.length y ≤ B)
    (hC : ∀ row ∈ C, ValidRow Y.length row ∧ row.length ≤ m ∧ (row.map fun e => |e.2| + 1).sum ≤ T ∧ Spec.liked row ≤ W) :
    ∃ X' : List (Vec f ℝ), rangeLeastSquares r fused Ω posv order C X (Y.map known) reg = .ok (X'.map known) ∧ X'.length = X.length ∧
      (∀ x ∈ X', Spec.length x ≤ B) ∧
      ∀ (i : Nat) (h : i < X'.length), roundLeastSquaresRow (roundOps r fused) r p Y (order _ hY0) reg (C[i]?.getD []) = .ok X'[i] := by
  have hrows : ∀ u, u < C.length → ∃ x, rangeLeastSquaresRow r fused Ω posv order (Y.map known) reg (C[u]?.getD []) = .ok (known x) ∧
      roundLeastSquaresRow (roundOps r fused) r p Y (order _ hY0) reg (C[u]?.getD []) = .ok x ∧ Spec.length x ≤ B := by
    intro u hu
    rw [List.getElem?_eq_getElem hu, Option.getD_some]
    obtain ⟨h1, h2, h3, h4⟩ := hC _ (List.getElem_mem hu)
    exact C102_row h0 fused hR hP hp order ho Y hY0 hn hY _ h1 h2 h3 h4
  choose! x h1 h2 h3 using hrows
  refine ⟨(List.range X.length).map x, ?_, by simp, ?_, ?_⟩
  · unfold rangeLeastSquares
    have : ∀ l : List Nat, (∀ u ∈ l, u < C.length) → (l.mapM fun u => match C[u]? with
        | none => Except.error Err.undefinedBehaviour
        | some row => rangeLeastSquaresRow r fused Ω posv order (Y.map known) reg row) = .ok (l.map (known ∘ x)) := by
      intro l hl
      induction l with
      | nil => rfl
      | cons u l ih =>
        have e := h1 u (hl u (by simp))
        rw [List.getElem?_eq_getElem (hl u (by simp)), Option.getD_some] at e
        rw [List.mapM_cons, ih fun v hv => hl v (by simp [hv]), List.getElem?_eq_getElem (hl u (by simp))]
        simp only [e]
        rfl
    rw [List.map_map]
    exact this _ fun u hu => by rw [← hX]; exact List.mem_range.mp hu
  · intro y hy
    obtain ⟨u, hu, rfl⟩ := List.mem_map.mp hy
    exact h3 u (by rw [← hX]; exact List.mem_range.mp hu)
  · intro i h
    rw [List.length_map, List.length_range] at h
    rw [List.getElem_map, List.getElem_range]
    exact h2 i (by omega)

/-- **C102** (training).  `fit` with `use_cg=False` and at least one iteration: if the initial item factors are no longer than `B`, then for every
number of iterations, every order of summation in each of them, and whatever the initial user factors were, no exception is raised, and all
factors are finite and no longer than `B`.  The item factors are those of C90 for the user factors. -/
theorem C102_fit (order : Nat → GramOrder f) (ho : ∀ i n h a b, (order i n h a b).Complete) {cols : Nat} (C : SpRows ℝ)
    (hn0 : 0 < C.length) (hn : C.length ≤ n) (hcols0 : 0 < cols) (hcols : cols ≤ n)
    (hC : ∀ row ∈ C, ValidRow cols row ∧ row.length ≤ m ∧ (row.map fun e => |e.2| + 1).sum ≤ T ∧ Spec.liked row ≤ W)
    (hCt : ∀ col ∈ transposeRows cols C, col.length ≤ m ∧ (col.map fun e => |e.2| + 1).sum ≤ T ∧ Spec.liked col ≤ W)
    (iterations : Nat) (X₀ : List (Vec f (Option ℝ))) (hX₀ : X₀.length = C.length) (Y₀ : List (Vec f ℝ)) (hY₀ : Y₀.length = cols)
    (hB₀ : ∀ y ∈ Y₀, Spec.length y ≤ B) :
    ∃ X Y : List (Vec f ℝ), rangeAlsFit r fused Ω posv order cols C reg (iterations + 1) ⟨X₀, Y₀.map known⟩ = .ok ⟨X.map known, Y.map known⟩ ∧
      ∃ hX : X.length = C.length, Y.length = cols ∧ (∀ x ∈ X, Spec.length x ≤ B) ∧ (∀ y ∈ Y, Spec.length y ≤ B) ∧
      ∀ (i : Nat) (h : i < Y.length),
        roundLeastSquaresRow (roundOps r fused) r p X (order (2 * iterations + 1) _ (hX ▸ hn0)) reg ((transposeRows cols C)[i]?.getD []) = .ok Y[i] := by
  have hvt : ∀ col ∈ transposeRows cols C, ValidRow C.length col := transpose_valid fun row hrow => (hC row hrow).1
  have one : ∀ (i : Nat) (X₀ : List (Vec f (Option ℝ))) (Y₀ : List (Vec f ℝ)), X₀.length = C.length → Y₀.length = cols →
      (∀ y ∈ Y₀, Spec.length y ≤ B) → ∃ X Y : List (Vec f ℝ),
        rangeLeastSquares r fused Ω posv (order (2 * i)) C X₀ (Y₀.map known) reg = .ok (X.map known) ∧
        rangeLeastSquares r fused Ω posv (order (2 * i + 1)) (transposeRows cols C) (Y₀.map known) (X.map known) reg = .ok (Y.map known) ∧
        ∃ hX : X.length = C.length, Y.length = cols ∧ (∀ x ∈ X, Spec.length x ≤ B) ∧ (∀ y ∈ Y, Spec.length y ≤ B) ∧
        ∀ (j : Nat) (h : j < Y.length),
          roundLeastSquaresRow (roundOps r fused) r p X (order (2 * i + 1) _ (hX ▸ hn0)) reg ((transposeRows cols C)[j]?.getD []) = .ok Y[j] := by
    intro i X₀ Y₀ h1 h2 h3
    obtain ⟨X, e1, e2, e3, -⟩ := C102_sweep h0 fused hR hP hp (order (2 * i)) (ho _) C X₀ h1 Y₀ (by omega) (by omega) h3 (by rwa [h2])
    rw [h1] at e2
    have ht : (transposeRows cols C).length = cols := by
      unfold transposeRows
      simp
    obtain ⟨Y, g1, g2, g3, g4⟩ := C102_sweep h0 fused hR hP hp (order (2 * i + 1)) (ho _) (transposeRows cols C) (Y₀.map known)
      (by rw [List.length_map, h2, ht]) X (by omega) (by omega) e3 (fun col hcol => ⟨by rw [e2]; exact hvt col hcol, hCt col hcol⟩)
    rw [List.length_map, h2] at g2
    exact ⟨X, Y, e1, g1, e2, g2, e3, g3, g4⟩
  have all : ∀ (k i : Nat) (X₀ : List (Vec f (Option ℝ))) (Y₀ : List (Vec f ℝ)), X₀.length = C.length → Y₀.length = cols →
      (∀ y ∈ Y₀, Spec.length y ≤ B) → ∃ X Y : List (Vec f ℝ),
        trainEpochs (fun i m => do
            let X ← rangeLeastSquares r fused Ω posv (order (2 * i)) C m.user m.item reg
            let Y ← rangeLeastSquares r fused Ω posv (order (2 * i + 1)) (transposeRows cols C) m.item X reg
            pure ⟨X, Y⟩) i (k + 1) ⟨X₀, Y₀.map known⟩ = .ok ⟨X.map known, Y.map known⟩ ∧
        ∃ hX : X.length = C.length, Y.length = cols ∧ (∀ x ∈ X, Spec.length x ≤ B) ∧ (∀ y ∈ Y, Spec.length y ≤ B) ∧
        ∀ (j : Nat) (h : j < Y.length),
          roundLeastSquaresRow (roundOps r fused) r p X (order (2 * (i + k) + 1) _ (hX ▸ hn0)) reg ((transposeRows cols C)[j]?.getD []) = .ok Y[j] := by
    intro k
    induction k with
    | zero =>
      intro i X₀ Y₀ h1 h2 h3
      obtain ⟨X, Y, e1, e2, e3⟩ := one i X₀ Y₀ h1 h2 h3
      refine ⟨X, Y, ?_, e3⟩
      simp only [trainEpochs, e1, e2, bind, Except.bind, pure, Except.pure]
    | succ k ih =>
      intro i X₀ Y₀ h1 h2 h3
      obtain ⟨X, Y, e1, e2, e3, e4, -, e6, -⟩ := one i X₀ Y₀ h1 h2 h3
      obtain ⟨X', Y', g1, g2⟩ := ih (i + 1) (X.map known) Y (by rw [List.length_map, e3]) e4 e6
      refine ⟨X', Y', ?_, ?_⟩
      · unfold trainEpochs
        simp only [e1, e2, bind, Except.bind, pure, Except.pure] at g1 ⊢
        exact g1
      · rw [show i + 1 + k = i + (k + 1) by omega] at g2
        exact g2
  obtain ⟨X, Y, e1, e2⟩ := all iterations 0 X₀ Y₀ hX₀ hY₀ hB₀
  rw [Nat.zero_add] at e2
  refine ⟨X, Y, ?_, e2⟩
  unfold rangeAlsFit cpuFit
  rw [e1]
  have hnan : ∀ l : List (Vec f ℝ), anyNaN Option.isNone (l.map known) = false := by
    intro l
    unfold anyNaN
    simp [known]
  simp only [bind, Except.bind, checkFitErrors, hnan]
  rfl

end

end Implicit
