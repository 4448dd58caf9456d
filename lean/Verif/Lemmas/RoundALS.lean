import Mathlib.Analysis.InnerProductSpace.PiL2
import Mathlib.Tactic.Linarith
import Mathlib.Tactic.Positivity
import Mathlib.Tactic.GCongr
import Verif.Lemmas.ALS
import Verif.Lemmas.Rounding
import Verif.Model.RoundALS
import Verif.Spec.RowError

set_option linter.unusedSectionVars false

namespace Implicit

variable {f : Nat}

/-! ## Lengths -/

theorem length_eq_norm (x : Vec f ℝ) : Spec.length x = ‖(WithLp.toLp 2 x : EuclideanSpace ℝ (Fin f))‖ := by
  rw [EuclideanSpace.norm_eq]
  unfold Spec.length
  congr 1
  refine Finset.sum_congr rfl fun i _ => ?_
  simp

theorem length_nonneg (x : Vec f ℝ) : 0 ≤ Spec.length x := Real.sqrt_nonneg _

theorem length_sq_sum (x : Vec f ℝ) : Spec.length x ^ 2 = ∑ i, x i ^ 2 :=
  Real.sq_sqrt (Finset.sum_nonneg fun _ _ => sq_nonneg _)

theorem length_sq_dot (x : Vec f ℝ) : Spec.length x ^ 2 = dot x x := by
  rw [length_sq_sum]
  exact Finset.sum_congr rfl fun i _ => sq _

theorem length_add_le (x y : Vec f ℝ) : Spec.length (x + y) ≤ Spec.length x + Spec.length y := by
  rw [length_eq_norm, length_eq_norm, length_eq_norm]
  exact norm_add_le _ _

theorem length_mono {x y : Vec f ℝ} (h : ∀ a, |x a| ≤ y a) : Spec.length x ≤ Spec.length y := by
  unfold Spec.length
  refine Real.sqrt_le_sqrt (Finset.sum_le_sum fun i _ => ?_)
  rw [← sq_abs (x i)]
  exact pow_le_pow_left₀ (abs_nonneg _) (h i) 2

theorem length_abs (x : Vec f ℝ) : Spec.length (fun a => |x a|) = Spec.length x := by
  unfold Spec.length
  simp

theorem length_smul (t : ℝ) (x : Vec f ℝ) : Spec.length (fun a => t * x a) = |t| * Spec.length x := by
  unfold Spec.length
  rw [← Real.sqrt_sq (abs_nonneg t), ← Real.sqrt_mul (sq_nonneg _), Finset.mul_sum]
  congr 1
  refine Finset.sum_congr rfl fun i _ => ?_
  rw [mul_pow, sq_abs]

theorem length_zero : Spec.length (0 : Vec f ℝ) = 0 := by
  unfold Spec.length
  simp

theorem length_neg (x : Vec f ℝ) : Spec.length (-x) = Spec.length x := by
  unfold Spec.length
  simp

theorem abs_dot_le_length (x y : Vec f ℝ) : |dot x y| ≤ Spec.length x * Spec.length y := by
  refine abs_le_of_sq_le_sq ?_ (mul_nonneg (length_nonneg _) (length_nonneg _))
  rw [mul_pow, length_sq_sum, length_sq_sum]
  exact Finset.sum_mul_sq_le_sq_mul_sq _ _ _

theorem length_list_sum_le {α : Type} (l : List α) (g : α → Vec f ℝ) :
    Spec.length (fun a => (l.map fun y => g y a).sum) ≤ (l.map fun y => Spec.length (g y)).sum := by
  induction l with
  | nil =>
    simp only [List.map_nil, List.sum_nil]
    exact (length_zero (f := f)).le
  | cons y l ih =>
    simp only [List.map_cons, List.sum_cons]
    exact (length_add_le (g y) (fun a => (l.map fun y => g y a).sum)).trans (by linarith)

/-! ## Errors -/

/-- `c` is computed instead of `s`: the error is at most `G - 1` times the size `A`. -/
def Near (G A c s : ℝ) : Prop := 1 ≤ G ∧ |c - s| ≤ (G - 1) * A ∧ |s| ≤ A

theorem Near.nonneg {G A c s : ℝ} (h : Near G A c s) : 0 ≤ A := (abs_nonneg _).trans h.2.2

theorem Near.self (c : ℝ) : Near 1 |c| c c := ⟨le_rfl, by simp, le_rfl⟩

theorem Near.abs_le {G A c s : ℝ} (h : Near G A c s) : |c| ≤ G * A := by
  have : |c| ≤ |c - s| + |s| := by simpa using abs_add_le (c - s) s
  linarith [h.2.1, h.2.2]

theorem Near.mono {G H A c s : ℝ} (h : Near G A c s) (hG : G ≤ H) : Near H A c s :=
  ⟨h.1.trans hG, h.2.1.trans (mul_le_mul_of_nonneg_right (by linarith) h.nonneg), h.2.2⟩

theorem Near.round {u G A c s c' : ℝ} (hu : 0 ≤ u) (h : Near G A c s) (hc : |c' - c| ≤ u * |c|) :
    Near (G * (1 + u)) A c' s := by
  refine ⟨by nlinarith [h.1], ?_, h.2.2⟩
  have h1 : |c' - s| ≤ |c' - c| + |c - s| := by simpa using abs_add_le (c' - c) (c - s)
  have h2 : u * |c| ≤ u * (G * A) := mul_le_mul_of_nonneg_left h.abs_le hu
  linarith [h.2.1]

theorem Near.mul {G H A B c d s t : ℝ} (h : Near G A c s) (h' : Near H B d t) : Near (G * H) (A * B) (c * d) (s * t) := by
  refine ⟨by nlinarith [h.1, h'.1], ?_, ?_⟩
  · have e : c * d - s * t = (c - s) * d + s * (d - t) := by ring
    rw [e]
    refine (abs_add_le _ _).trans ?_
    rw [abs_mul, abs_mul]
    have h1 : |c - s| * |d| ≤ (G - 1) * A * (H * B) :=
      mul_le_mul h.2.1 h'.abs_le (abs_nonneg _) (mul_nonneg (by linarith [h.1]) h.nonneg)
    have h2 : |s| * |d - t| ≤ A * ((H - 1) * B) := mul_le_mul h.2.2 h'.2.1 (abs_nonneg _) h.nonneg
    linarith
  · rw [abs_mul]
    exact mul_le_mul h.2.2 h'.2.2 (abs_nonneg _) h.nonneg

theorem Near.add {G A B c d s t : ℝ} (h : Near G A c s) (h' : Near G B d t) : Near G (A + B) (c + d) (s + t) := by
  refine ⟨h.1, ?_, (abs_add_le _ _).trans (add_le_add h.2.2 h'.2.2)⟩
  have e : c + d - (s + t) = (c - s) + (d - t) := by ring
  rw [e]
  refine (abs_add_le _ _).trans ?_
  linarith [h.2.1, h'.2.1]

theorem Near.neg {G A c s : ℝ} (h : Near G A c s) : Near G A (-c) (-s) := by
  refine ⟨h.1, ?_, by rw [abs_neg]; exact h.2.2⟩
  rw [show -c - -s = -(c - s) by ring, abs_neg]
  exact h.2.1

theorem one_le_growth {u : ℝ} (hu : 0 ≤ u) (k : Nat) : 1 ≤ (1 + u) ^ k := one_le_pow₀ (by linarith)

theorem growth_mono {u : ℝ} (hu : 0 ≤ u) {k l : Nat} (h : k ≤ l) : (1 + u) ^ k ≤ (1 + u) ^ l :=
  pow_le_pow_right₀ (by linarith) h

section
variable {A : FloatOps ℝ} {u : ℝ}

theorem near_add (hA : A.Accurate u) {k l m : Nat} {M N c d s t : ℝ} (h : Near ((1 + u) ^ k) M c s) (h' : Near ((1 + u) ^ l) N d t)
    (hk : k + 1 ≤ m) (hl : l + 1 ≤ m) : Near ((1 + u) ^ m) (M + N) (A.add c d) (s + t) := by
  obtain ⟨m, rfl⟩ : ∃ m', m = m' + 1 := ⟨m - 1, by omega⟩
  rw [pow_succ]
  exact ((h.mono (growth_mono hA.nonneg (by omega))).add (h'.mono (growth_mono hA.nonneg (by omega)))).round hA.nonneg (hA.add _ _)

theorem near_sub (hA : A.Accurate u) {k l m : Nat} {M N c d s t : ℝ} (h : Near ((1 + u) ^ k) M c s) (h' : Near ((1 + u) ^ l) N d t)
    (hk : k + 1 ≤ m) (hl : l + 1 ≤ m) : Near ((1 + u) ^ m) (M + N) (A.sub c d) (s - t) := by
  obtain ⟨m, rfl⟩ : ∃ m', m = m' + 1 := ⟨m - 1, by omega⟩
  rw [pow_succ]
  have := (h.mono (growth_mono hA.nonneg (show k ≤ m by omega))).add (h'.mono (growth_mono hA.nonneg (show l ≤ m by omega))).neg
  rw [← sub_eq_add_neg, ← sub_eq_add_neg] at this
  exact this.round hA.nonneg (hA.sub _ _)

theorem near_mul (hA : A.Accurate u) {k l m : Nat} {M N c d s t : ℝ} (h : Near ((1 + u) ^ k) M c s) (h' : Near ((1 + u) ^ l) N d t)
    (hk : k + l + 1 ≤ m) : Near ((1 + u) ^ m) (M * N) (A.mul c d) (s * t) := by
  have := (h.mul h').round hA.nonneg (hA.mul _ _)
  rw [← pow_add, ← pow_succ] at this
  exact this.mono (growth_mono hA.nonneg hk)

theorem near_axpy (hA : A.Accurate u) {k l j m : Nat} {M N P t y c τ η s : ℝ} (ht : Near ((1 + u) ^ k) M t τ)
    (hy : Near ((1 + u) ^ l) N y η) (hc : Near ((1 + u) ^ j) P c s) (hk : k + l + 2 ≤ m) (hj : j + 1 ≤ m) :
    Near ((1 + u) ^ m) (P + M * N) (A.axpy t y c) (s + τ * η) := by
  obtain ⟨m, rfl⟩ : ∃ m', m = m' + 1 := ⟨m - 1, by omega⟩
  obtain ⟨p, hp, ha⟩ := hA.axpy t y c
  have h1 := (ht.mul hy).round hA.nonneg hp
  rw [← pow_add, ← pow_succ] at h1
  rw [pow_succ]
  exact ((hc.mono (growth_mono hA.nonneg (by omega))).add (h1.mono (growth_mono hA.nonneg (by omega)))).round hA.nonneg ha

theorem near_self (c : ℝ) (u : ℝ) : Near ((1 + u) ^ 0) |c| c c := by
  rw [pow_zero]
  exact Near.self c

theorem near_conf (hA : A.Accurate u) (c : ℝ) (h : ¬0 < c) :
    Near ((1 + u) ^ 3) (|c| + 1) (A.sub (A.mul A.negOne c) A.one) (conf c - 1) := by
  have h1 : Near ((1 + u) ^ 1) 1 A.negOne (-1) := by
    have := near_sub hA (near_self 0 u) (near_self 1 u) (m := 1) (by omega) (by omega)
    unfold FloatOps.negOne
    rw [hA.zero, hA.one]
    simpa using this
  have h2 : Near ((1 + u) ^ 2) (1 * |c|) (A.mul A.negOne c) (-1 * c) := near_mul hA h1 (near_self c u) (by omega)
  have h3 := near_sub hA h2 (near_self 1 u) (m := 3) (by omega) (by omega)
  rw [hA.one]
  unfold conf
  rw [if_neg h]
  simpa using h3

theorem near_conf_pos (hA : A.Accurate u) (c : ℝ) (h : 0 < c) :
    Near ((1 + u) ^ 3) (|c| + 1) (A.sub c A.one) (conf c - 1) := by
  have h3 := near_sub hA (near_self c u) (near_self 1 u) (m := 3) (by omega) (by omega)
  rw [hA.one]
  unfold conf
  rw [if_pos h]
  simpa using h3

/-- The system of a row: what is computed against what should be, with sizes `M` and `B`. -/
def NearSystem (u : ℝ) (k : Nat) (M : Mat f ℝ) (B : Vec f ℝ) (s t : Mat f ℝ × Vec f ℝ) : Prop :=
  (∀ a b, Near ((1 + u) ^ k) (M a b) (s.1 a b) (t.1 a b)) ∧ ∀ a, Near ((1 + u) ^ k) (B a) (s.2 a) (t.2 a)

theorem near_accumulate (hA : A.Accurate u) {k : Nat} (hk : 5 ≤ k) {M : Mat f ℝ} {B : Vec f ℝ} {s t : Mat f ℝ × Vec f ℝ}
    (h : NearSystem u k M B s t) (e : Vec f ℝ × ℝ) :
    NearSystem u (k + 1) (fun a b => M a b + (|e.2| + 1) * |e.1 a| * |e.1 b|) (fun a => B a + gain e.2 * |e.1 a|)
      (A.accumulate s e) (accumulate t e) := by
  rw [accumulate_eq]
  unfold FloatOps.accumulate
  rw [hA.zero]
  by_cases hp : 0 < e.2
  · rw [if_pos ((hA.lt _ _).mpr hp)]
    refine ⟨fun a b => ?_, fun a => ?_⟩
    · exact near_axpy hA (near_mul hA (near_conf_pos hA e.2 hp) (near_self (e.1 a) u) (m := 4) (by omega)) (near_self (e.1 b) u)
        (h.1 a b) (by omega) (by omega)
    · have := near_axpy hA (near_self e.2 u) (near_self (e.1 a) u) (h.2 a) (m := k + 1) (by omega) (by omega)
      have hg : gain e.2 = e.2 := if_pos hp
      rw [abs_of_pos hp] at this
      show Near _ (B a + gain e.2 * |e.1 a|) (A.axpy e.2 (e.1 a) (s.2 a)) (t.2 a + gain e.2 * e.1 a)
      rw [hg]
      exact this
  · rw [if_neg (fun hc => hp ((hA.lt _ _).mp hc))]
    refine ⟨fun a b => ?_, fun a => ?_⟩
    · exact near_axpy hA (near_mul hA (near_conf hA e.2 hp) (near_self (e.1 a) u) (m := 4) (by omega)) (near_self (e.1 b) u)
        (h.1 a b) (by omega) (by omega)
    · have hg : gain e.2 = 0 := if_neg hp
      simp only [hg, zero_mul, add_zero]
      exact (h.2 a).mono (growth_mono hA.nonneg (by omega))

theorem near_foldl (hA : A.Accurate u) (es : List (Vec f ℝ × ℝ)) {k : Nat} (hk : 5 ≤ k) {M : Mat f ℝ} {B : Vec f ℝ}
    {s t : Mat f ℝ × Vec f ℝ} (h : NearSystem u k M B s t) :
    NearSystem u (k + es.length) (fun a b => M a b + (es.map fun e => (|e.2| + 1) * |e.1 a| * |e.1 b|).sum)
      (fun a => B a + (es.map fun e => gain e.2 * |e.1 a|).sum) (es.foldl A.accumulate s) (es.foldl accumulate t) := by
  induction es generalizing k M B s t with
  | nil => simpa using h
  | cons e es ih =>
    have := ih (by omega) (near_accumulate hA hk h e)
    simp only [List.map_cons, List.sum_cons, List.foldl_cons, List.length_cons, ← add_assoc] at this ⊢
    rw [show k + es.length + 1 = k + 1 + es.length by omega]
    exact this

theorem near_gram (r : Rounding ℝ) (h0 : r.η = 0) (Y : List (Vec f ℝ)) (order : Fin f → Fin f → SumTree Y.length)
    (ho : ∀ a b, (order a b).Complete) (a b : Fin f) :
    Near ((1 + r.u) ^ Y.length) (Y.map fun y => |y a| * |y b|).sum (roundGram r Y order a b) (gram Y a b) := by
  have h := (order a b).eval_error r (fun i => Y[i] a) (fun i => Y[i] b)
  have hs : (order a b).exact (fun i => Y[i] a) (fun i => Y[i] b) = gram Y a b := by
    rw [SumTree.exact_complete (ho a b)]
    exact sum_fin_getElem Y (fun y => y a * y b)
  have hm : (order a b).mass (fun i => Y[i] a) (fun i => Y[i] b) = (Y.map fun y => |y a| * |y b|).sum := by
    rw [SumTree.mass_complete (ho a b), ← sum_fin_getElem Y (fun y => |y a| * |y b|)]
    exact Finset.sum_congr rfl fun i _ => abs_mul _ _
  have hl := (order a b).abs_exact_le (fun i => Y[i] a) (fun i => Y[i] b)
  rw [hs, hm] at hl
  rw [hs, hm, SumTree.length_complete (ho a b), h0] at h
  refine ⟨one_le_growth r.u_nonneg _, ?_, hl⟩
  rw [mul_zero, add_zero] at h
  exact h

/-- The size of the regularised matrix. -/
def sizeMat (Y : List (Vec f ℝ)) (reg : ℝ) : Mat f ℝ :=
  fun a b => (Y.map fun y => |y a| * |y b|).sum + |reg| * (if a = b then 1 else 0)

theorem near_regularised (hA : A.Accurate u) (r : Rounding ℝ) (hr : r.u = u) (h0 : r.η = 0) (Y : List (Vec f ℝ))
    (order : Fin f → Fin f → SumTree Y.length) (ho : ∀ a b, (order a b).Complete) (reg : ℝ) :
    NearSystem u (Y.length + 5) (sizeMat Y reg) (fun _ => 0)
      (A.regularised (roundGram r Y order) reg, fun _ => A.zero) (regularised (gram Y) reg, fun _ => 0) := by
  refine ⟨fun a b => ?_, fun a => ?_⟩
  · have h1 := near_gram r h0 Y order ho a b
    rw [hr] at h1
    have h2 : Near ((1 + u) ^ 1) (|reg| * |if a = b then (1 : ℝ) else 0|) (A.mul reg (if a = b then A.one else A.zero))
        (reg * if a = b then 1 else 0) := by
      rw [hA.one, hA.zero]
      exact near_mul hA (near_self reg u) (near_self _ u) (by omega)
    have h3 : |if a = b then (1 : ℝ) else 0| = if a = b then 1 else 0 := by split_ifs <;> simp
    rw [h3] at h2
    exact near_add hA h1 h2 (by omega) (by omega)
  · show Near _ 0 A.zero 0
    rw [hA.zero]
    exact ⟨one_le_growth hA.nonneg _, by simp, by simp⟩

end

/-! ## Sizes -/

/-- The size of the whole matrix of a row. -/
def rowSize (Y : List (Vec f ℝ)) (reg : ℝ) (es : List (Vec f ℝ × ℝ)) : Mat f ℝ :=
  fun a b => sizeMat Y reg a b + (es.map fun e => (|e.2| + 1) * |e.1 a| * |e.1 b|).sum

theorem dot_list_sum_left {α : Type} (v : Vec f ℝ) (l : List α) (g : α → Vec f ℝ) :
    dot (fun a => (l.map fun y => g y a).sum) v = (l.map fun y => dot (g y) v).sum := by
  rw [dot_comm, dot_list_sum]
  congr 1
  exact List.map_congr_left fun y _ => dot_comm _ _

theorem mulVec_rowSize (Y : List (Vec f ℝ)) (reg : ℝ) (es : List (Vec f ℝ × ℝ)) (v : Vec f ℝ) :
    mulVec (rowSize Y reg es) v =
      ((fun a => (Y.map fun y => dot (fun b => |y b|) v * |y a|).sum) + fun a => |reg| * v a) +
        fun a => (es.map fun e => ((|e.2| + 1) * dot (fun b => |e.1 b|) v) * |e.1 a|).sum := by
  funext a
  have h1 : rowSize Y reg es a = ((fun b => (Y.map fun y => |y a| * |y b|).sum) + fun b => |reg| * (if a = b then 1 else 0)) +
      fun b => (es.map fun e => (|e.2| + 1) * |e.1 a| * |e.1 b|).sum := rfl
  show dot (rowSize Y reg es a) v = _
  rw [h1, dot_comm, dot_add_right, dot_add_right, dot_comm v, dot_comm v, dot_comm v, dot_list_sum_left v Y (fun y b => |y a| * |y b|),
    dot_list_sum_left v es (fun e b => (|e.2| + 1) * |e.1 a| * |e.1 b|), dot_smul_left]
  simp only [Pi.add_apply]
  congr 1
  · congr 1
    · congr 1
      refine List.map_congr_left fun y _ => ?_
      rw [dot_smul_left, mul_comm]
    · rw [dot_comm, dot_single]
  · congr 1
    refine List.map_congr_left fun e _ => ?_
    rw [dot_smul_left]
    ring

theorem length_rank_one (w : ℝ) (hw : 0 ≤ w) (y v : Vec f ℝ) :
    Spec.length (fun a => (w * dot (fun b => |y b|) v) * |y a|) ≤ w * Spec.length y ^ 2 * Spec.length v := by
  rw [length_smul, length_abs, abs_mul, abs_of_nonneg hw]
  have := abs_dot_le_length (fun b => |y b|) v
  rw [length_abs] at this
  have h1 := mul_le_mul_of_nonneg_right (mul_le_mul_of_nonneg_left this hw) (length_nonneg y)
  calc w * |dot (fun b => |y b|) v| * Spec.length y ≤ w * (Spec.length y * Spec.length v) * Spec.length y := h1
    _ = w * Spec.length y ^ 2 * Spec.length v := by ring

theorem list_sum_le {α : Type} (l : List α) (g h : α → ℝ) (H : ∀ x ∈ l, g x ≤ h x) : (l.map g).sum ≤ (l.map h).sum := by
  induction l with
  | nil => simp
  | cons x l ih =>
    rw [List.map_cons, List.map_cons, List.sum_cons, List.sum_cons]
    exact add_le_add (H x (by simp)) (ih fun y hy => H y (by simp [hy]))

theorem list_sum_mul_right' {α : Type} (l : List α) (g : α → ℝ) (t : ℝ) : (l.map fun x => g x * t).sum = (l.map g).sum * t := by
  rw [mul_comm, list_sum_mul_left]
  congr 1
  exact List.map_congr_left fun x _ => mul_comm _ _

/-- The trace of the size. -/
noncomputable def traceSize (Y : List (Vec f ℝ)) (reg : ℝ) (es : List (Vec f ℝ × ℝ)) : ℝ :=
  reg * f + (Y.map fun y => Spec.length y ^ 2).sum + (es.map fun e => (|e.2| + 1) * Spec.length e.1 ^ 2).sum

theorem length_mulVec_rowSize (Y : List (Vec f ℝ)) {reg : ℝ} (hreg : 0 ≤ reg) (es : List (Vec f ℝ × ℝ)) (v : Vec f ℝ) :
    Spec.length (mulVec (rowSize Y reg es) v) ≤ traceSize Y reg es * Spec.length v := by
  rw [mulVec_rowSize]
  refine (length_add_le _ _).trans ?_
  have h1 : Spec.length (fun a => (Y.map fun y => dot (fun b => |y b|) v * |y a|).sum) ≤
      (Y.map fun y => Spec.length y ^ 2).sum * Spec.length v := by
    refine (length_list_sum_le Y fun y a => dot (fun b => |y b|) v * |y a|).trans ?_
    rw [← list_sum_mul_right']
    refine list_sum_le _ _ _ fun y _ => ?_
    have := length_rank_one 1 zero_le_one y v
    simpa using this
  have h2 : Spec.length (fun a => |reg| * v a) ≤ reg * f * Spec.length v := by
    rw [length_smul, abs_abs, abs_of_nonneg hreg]
    rcases Nat.eq_zero_or_pos f with h | h
    · subst h
      have : Spec.length v = 0 := by unfold Spec.length; simp
      rw [this]; simp
    · have : (1 : ℝ) ≤ f := by exact_mod_cast h
      have h3 := mul_nonneg hreg (length_nonneg v)
      nlinarith
  have h3 : Spec.length (fun a => (es.map fun e => ((|e.2| + 1) * dot (fun b => |e.1 b|) v) * |e.1 a|).sum) ≤
      (es.map fun e => (|e.2| + 1) * Spec.length e.1 ^ 2).sum * Spec.length v := by
    refine (length_list_sum_le es fun e a => ((|e.2| + 1) * dot (fun b => |e.1 b|) v) * |e.1 a|).trans ?_
    rw [← list_sum_mul_right']
    exact list_sum_le _ _ _ fun e _ => length_rank_one _ (by positivity) _ _
  have h4 := length_add_le (fun a => (Y.map fun y => dot (fun b => |y b|) v * |y a|).sum) (fun a => |reg| * v a)
  unfold traceSize
  rw [add_mul, add_mul]
  linarith

theorem trace_rowSize (Y : List (Vec f ℝ)) {reg : ℝ} (hreg : 0 ≤ reg) (es : List (Vec f ℝ × ℝ)) :
    ∑ a, rowSize Y reg es a a = traceSize Y reg es := by
  unfold rowSize sizeMat traceSize
  rw [Finset.sum_add_distrib, Finset.sum_add_distrib, finset_sum_list_sum, finset_sum_list_sum, abs_of_nonneg hreg]
  have h1 : ∑ a : Fin f, reg * (if a = a then (1 : ℝ) else 0) = reg * f := by simp [mul_comm]
  rw [h1, add_comm (List.sum _) (reg * f)]
  congr 1
  · congr 1
    congr 1
    refine List.map_congr_left fun y _ => ?_
    rw [length_sq_sum]
    exact Finset.sum_congr rfl fun i _ => by rw [abs_mul_abs_self, sq]
  · congr 1
    refine List.map_congr_left fun e _ => ?_
    rw [length_sq_sum, Finset.mul_sum]
    exact Finset.sum_congr rfl fun i _ => by rw [mul_assoc, abs_mul_abs_self, sq]

/-! ## The computed system -/

theorem rowSize_symm (Y : List (Vec f ℝ)) (reg : ℝ) (es : List (Vec f ℝ × ℝ)) (a b : Fin f) :
    rowSize Y reg es a b = rowSize Y reg es b a := by
  unfold rowSize sizeMat
  congr 1
  · congr 1
    · congr 1
      exact List.map_congr_left fun y _ => mul_comm _ _
    · simp [eq_comm]
  · congr 1
    exact List.map_congr_left fun e _ => by ring

/-- The system of a row as computed. -/
theorem near_system {A : FloatOps ℝ} {u : ℝ} (hA : A.Accurate u) (r : Rounding ℝ) (hr : r.u = u) (h0 : r.η = 0) (Y : List (Vec f ℝ))
    (order : Fin f → Fin f → SumTree Y.length) (ho : ∀ a b, (order a b).Complete) (reg : ℝ) (es : List (Vec f ℝ × ℝ))
    {S : Mat f ℝ × Vec f ℝ} (hS : S = es.foldl A.accumulate (A.regularised (roundGram r Y order) reg, fun _ => A.zero)) :
    (∀ a b, Near ((1 + u) ^ (Y.length + es.length + 5)) (rowSize Y reg es a b) (S.1 a b) ((linearEquation (gram Y) reg es).1 a b)) ∧
    ∀ a, Near ((1 + u) ^ (Y.length + es.length + 5)) (es.map fun e => gain e.2 * |e.1 a|).sum (S.2 a)
      ((linearEquation (gram Y) reg es).2 a) := by
  have hnear := near_foldl hA es (by omega) (near_regularised hA r hr h0 Y order ho reg)
  rw [← hS] at hnear
  rw [show Y.length + 5 + es.length = Y.length + es.length + 5 by omega] at hnear
  refine ⟨hnear.1, fun a => ?_⟩
  have := hnear.2 a
  beta_reduce at this
  rwa [zero_add] at this

section
variable {A : FloatOps ℝ} {u : ℝ} {Y : List (Vec f ℝ)} {reg : ℝ} {es : List (Vec f ℝ × ℝ)} {S : Mat f ℝ × Vec f ℝ} {F : ℝ}

theorem lowerPart_near (hM : ∀ a b, Near F (rowSize Y reg es a b) (S.1 a b) ((linearEquation (gram Y) reg es).1 a b)) (a b : Fin f) :
    |lowerPart S.1 a b - (linearEquation (gram Y) reg es).1 a b| ≤ (F - 1) * rowSize Y reg es a b := by
  unfold lowerPart
  split_ifs
  · exact (hM a b).2.1
  · rw [linearEquation_symm (gram_symm Y) reg es a b, rowSize_symm]
    exact (hM b a).2.1

theorem length_lowerPart (hF : 1 ≤ F) (hreg : 0 ≤ reg)
    (hM : ∀ a b, Near F (rowSize Y reg es a b) (S.1 a b) ((linearEquation (gram Y) reg es).1 a b)) (x : Vec f ℝ) :
    Spec.length (mulVec (lowerPart S.1) x - mulVec (linearEquation (gram Y) reg es).1 x) ≤
      (F - 1) * (traceSize Y reg es * Spec.length x) := by
  have : ∀ a, |(mulVec (lowerPart S.1) x - mulVec (linearEquation (gram Y) reg es).1 x) a| ≤
      (F - 1) * mulVec (rowSize Y reg es) (fun b => |x b|) a := by
    intro a
    rw [Pi.sub_apply]
    unfold mulVec dot
    rw [← Finset.sum_sub_distrib, Finset.mul_sum]
    refine (Finset.abs_sum_le_sum_abs _ _).trans (Finset.sum_le_sum fun b _ => ?_)
    rw [← sub_mul, abs_mul, ← mul_assoc]
    exact mul_le_mul_of_nonneg_right (lowerPart_near hM a b) (abs_nonneg _)
  refine (length_mono this).trans ?_
  rw [length_smul, abs_of_nonneg (by linarith)]
  refine mul_le_mul_of_nonneg_left ?_ (by linarith)
  have := length_mulVec_rowSize Y hreg es (fun b => |x b|)
  rwa [length_abs] at this

theorem trace_le (hreg : 0 ≤ reg)
    (hM : ∀ a b, Near F (rowSize Y reg es a b) (S.1 a b) ((linearEquation (gram Y) reg es).1 a b)) :
    ∑ a, S.1 a a ≤ F * traceSize Y reg es := by
  rw [← trace_rowSize Y hreg, Finset.mul_sum]
  exact Finset.sum_le_sum fun a _ => (le_abs_self _).trans (hM a a).abs_le

theorem length_target (hF : 1 ≤ F)
    (hB : ∀ a, Near F (es.map fun e => gain e.2 * |e.1 a|).sum (S.2 a) ((linearEquation (gram Y) reg es).2 a)) :
    Spec.length ((linearEquation (gram Y) reg es).2 - S.2) ≤ (F - 1) * (es.map fun e => gain e.2 * Spec.length e.1).sum := by
  have : ∀ a, |((linearEquation (gram Y) reg es).2 - S.2) a| ≤ (F - 1) * (es.map fun e => gain e.2 * |e.1 a|).sum := by
    intro a
    rw [Pi.sub_apply, abs_sub_comm]
    exact (hB a).2.1
  refine (length_mono this).trans ?_
  rw [length_smul, abs_of_nonneg (by linarith)]
  refine mul_le_mul_of_nonneg_left ?_ (by linarith)
  refine (length_list_sum_le es fun e a => gain e.2 * |e.1 a|).trans (le_of_eq ?_)
  congr 1
  refine List.map_congr_left fun e _ => ?_
  rw [length_smul, length_abs, abs_of_nonneg]
  unfold gain
  split_ifs with h
  · exact h.le
  · exact le_rfl

/-- The residual of the computed vector in the exact system. -/
theorem length_residual (hF : 1 ≤ F) {κ : ℝ} (hκ : 0 ≤ κ) (hreg : 0 ≤ reg)
    (hM : ∀ a b, Near F (rowSize Y reg es a b) (S.1 a b) ((linearEquation (gram Y) reg es).1 a b))
    (hB : ∀ a, Near F (es.map fun e => gain e.2 * |e.1 a|).sum (S.2 a) ((linearEquation (gram Y) reg es).2 a)) {x : Vec f ℝ}
    (hx : Spec.length (mulVec (lowerPart S.1) x - S.2) ≤ κ * (∑ a, S.1 a a) * Spec.length x) :
    Spec.length ((linearEquation (gram Y) reg es).2 - mulVec (linearEquation (gram Y) reg es).1 x) ≤
      ((F - 1) + κ * F) * traceSize Y reg es * Spec.length x + (F - 1) * (es.map fun e => gain e.2 * Spec.length e.1).sum := by
  have h1 := length_target hF hB
  have h2 := length_lowerPart hF hreg hM x
  have h4 : κ * (∑ a, S.1 a a) * Spec.length x ≤ κ * (F * traceSize Y reg es) * Spec.length x :=
    mul_le_mul_of_nonneg_right (mul_le_mul_of_nonneg_left (trace_le hreg hM) hκ) (length_nonneg _)
  set E := linearEquation (gram Y) reg es with hE
  have e : E.2 - mulVec E.1 x = ((E.2 - S.2) + -(mulVec (lowerPart S.1) x - S.2)) + (mulVec (lowerPart S.1) x - mulVec E.1 x) := by
    funext a
    simp only [Pi.sub_apply, Pi.add_apply, Pi.neg_apply]
    ring
  rw [e]
  have h5 := length_add_le ((E.2 - S.2) + -(mulVec (lowerPart S.1) x - S.2)) (mulVec (lowerPart S.1) x - mulVec E.1 x)
  have h6 := length_add_le (E.2 - S.2) (-(mulVec (lowerPart S.1) x - S.2))
  rw [length_neg] at h6
  nlinarith [h1, h2, h4, h5, h6, hx]

/-- The matrix LAPACK is given is positive definite, with a margin. -/
theorem lowerPart_coercive (hF : 1 ≤ F) {κ : ℝ} (hκ : 0 ≤ κ) (hreg : 0 ≤ reg)
    (hM : ∀ a b, Near F (rowSize Y reg es a b) (S.1 a b) ((linearEquation (gram Y) reg es).1 a b))
    (hco : ∀ x, reg * dot x x ≤ dot x (mulVec (linearEquation (gram Y) reg es).1 x))
    (hsmall : ((F - 1) + κ * F) * traceSize Y reg es < reg) (x : Vec f ℝ) (hx : x ≠ 0) :
    κ * (∑ a, S.1 a a) * dot x x < dot x (mulVec (lowerPart S.1) x) := by
  have hpos := dot_self_pos hx
  have h1 := hco x
  have h2 := length_lowerPart hF hreg hM x
  have h3 : |dot x (mulVec (lowerPart S.1) x - mulVec (linearEquation (gram Y) reg es).1 x)| ≤
      (F - 1) * traceSize Y reg es * dot x x := by
    refine (abs_dot_le_length _ _).trans ?_
    rw [← length_sq_dot]
    have := mul_le_mul_of_nonneg_left h2 (length_nonneg x)
    nlinarith
  rw [dot_sub_right] at h3
  have h4 := (abs_le.mp h3).1
  have h5 : κ * (∑ a, S.1 a a) * dot x x ≤ κ * (F * traceSize Y reg es) * dot x x :=
    mul_le_mul_of_nonneg_right (mul_le_mul_of_nonneg_left (trace_le hreg hM) hκ) hpos.le
  have h6 := mul_lt_mul_of_pos_right hsmall hpos
  nlinarith

end

/-! ## Stability -/

/-- The matrix of a row is at least `reg`. -/
theorem linearEquation_coercive (Y : List (Vec f ℝ)) (row : List (Nat × ℝ)) (hnd : (row.map Prod.fst).Nodup)
    (hlt : ∀ e ∈ row, e.1 < Y.length) (reg : ℝ) (x : Vec f ℝ) :
    reg * dot x x ≤ dot x (mulVec (linearEquation (gram Y) reg (row.map fun e => (Y[e.1]?.getD 0, e.2))).1 x) := by
  rcases eq_or_ne x 0 with rfl | hx
  · rw [mulVec_zero, dot_zero_right', mul_zero]
  rw [dot_mulVec_linearEquation]
  have hpos := dot_self_pos hx
  by_contra hcon
  rw [not_le] at hcon
  set q := (Y.map fun y => dot y x * dot y x).sum +
    ((row.map fun e => ((Y[e.1]?.getD 0 : Vec f ℝ), e.2)).map fun e => (conf e.2 - 1) * dot e.1 x * dot e.1 x).sum with hq
  have hneg : q < 0 := by linarith
  have hε : 0 < -q / dot x x := div_pos (by linarith) hpos
  have := (linearEquation_posDef Y row hnd hlt hε).pos x hx
  rw [dot_mulVec_linearEquation, div_mul_cancel₀ _ hpos.ne'] at this
  linarith

/-- An approximate solution is close to the solution. -/
theorem stable_solution {M : Mat f ℝ} {reg : ℝ} (hreg : 0 < reg) (hM : ∀ x, reg * dot x x ≤ dot x (mulVec M x)) {b x z : Vec f ℝ}
    {ρ : ℝ} (hz : mulVec M z = b) (hx : Spec.length (b - mulVec M x) ≤ ρ) :
    Spec.length (x - z) ≤ ρ / reg ∧ dot (x - z) (mulVec M (x - z)) ≤ ρ ^ 2 / reg := by
  have hρ : 0 ≤ ρ := (length_nonneg _).trans hx
  have h1 : mulVec M (x - z) = -(b - mulVec M x) := by
    rw [mulVec_sub, hz]
    funext a
    simp
  have h2 : dot (x - z) (mulVec M (x - z)) ≤ Spec.length (x - z) * ρ := by
    refine (le_abs_self _).trans ((abs_dot_le_length _ _).trans ?_)
    refine mul_le_mul_of_nonneg_left ?_ (length_nonneg _)
    rw [h1, length_neg]
    exact hx
  have h3 := hM (x - z)
  rw [← length_sq_dot] at h3
  have hl := length_nonneg (x - z)
  have h4 : Spec.length (x - z) ≤ ρ / reg := by
    rw [le_div_iff₀ hreg]
    rcases hl.eq_or_lt with h | h
    · rw [← h]; simpa using hρ
    · refine le_of_mul_le_mul_left ?_ h
      nlinarith
  refine ⟨h4, h2.trans ?_⟩
  calc Spec.length (x - z) * ρ ≤ ρ / reg * ρ := mul_le_mul_of_nonneg_right h4 hρ
    _ = ρ ^ 2 / reg := by ring

end Implicit
