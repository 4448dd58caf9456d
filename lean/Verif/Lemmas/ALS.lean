import Verif.Model.ALS
import Verif.Spec.ALS
import Mathlib.Algebra.BigOperators.Ring.Finset
import Mathlib.Algebra.BigOperators.Ring.List
import Mathlib.Algebra.Order.BigOperators.Ring.Finset
import Mathlib.Algebra.Order.BigOperators.Group.List
import Mathlib.Tactic.Ring
import Mathlib.Tactic.Linarith
import Mathlib.Tactic.LinearCombination

set_option linter.unusedSectionVars false

namespace Implicit

variable {R : Type} [LinearOrder R] [Field R] {f : Nat}

/-! ## Vectors -/

theorem dot_comm (x y : Vec f R) : dot x y = dot y x := by
  unfold dot; exact Finset.sum_congr rfl (fun j _ => mul_comm _ _)

theorem dot_axpy_right (t : R) (x y z : Vec f R) : dot x (axpy t y z) = dot x z + t * dot x y := by
  unfold dot axpy
  rw [Finset.mul_sum, ← Finset.sum_add_distrib]
  exact Finset.sum_congr rfl (fun j _ => by ring)

theorem dot_axpy_left (t : R) (x y z : Vec f R) : dot (axpy t y z) x = dot z x + t * dot y x := by
  rw [dot_comm, dot_axpy_right, dot_comm x, dot_comm x]

theorem dot_add_right (x y z : Vec f R) : dot x (y + z) = dot x y + dot x z := by
  unfold dot
  rw [← Finset.sum_add_distrib]
  exact Finset.sum_congr rfl (fun j _ => by simp [mul_add])

theorem dot_sub_right (x y z : Vec f R) : dot x (y - z) = dot x y - dot x z := by
  unfold dot
  rw [← Finset.sum_sub_distrib]
  exact Finset.sum_congr rfl (fun j _ => by simp [mul_sub])

theorem dot_sub_left (x y z : Vec f R) : dot (y - z) x = dot y x - dot z x := by
  rw [dot_comm, dot_sub_right, dot_comm x, dot_comm x]

theorem dot_smul_right (t : R) (x y : Vec f R) : dot x (fun a => t * y a) = t * dot x y := by
  unfold dot
  rw [Finset.mul_sum]
  exact Finset.sum_congr rfl (fun j _ => by ring)

theorem dot_smul_left (t : R) (x y : Vec f R) : dot (fun a => t * y a) x = t * dot y x := by
  rw [dot_comm, dot_smul_right, dot_comm]

theorem dot_zero_right (x : Vec f R) : dot x (fun _ => 0) = 0 := by simp [dot]

theorem dot_zero_right' (x : Vec f R) : dot x 0 = 0 := by simp [dot]

theorem dot_zero_left (x : Vec f R) : dot (fun _ => 0) x = 0 := by simp [dot]

theorem dot_single (x : Vec f R) (a : Fin f) : dot x (fun b => if a = b then 1 else 0) = x a := by
  simp [dot]

theorem mulVec_axpy (A : Mat f R) (t : R) (y z : Vec f R) :
    mulVec A (axpy t y z) = axpy t (mulVec A y) (mulVec A z) := by
  funext a; unfold mulVec; rw [dot_axpy_right]; rfl

theorem mulVec_sub (A : Mat f R) (y z : Vec f R) : mulVec A (y - z) = mulVec A y - mulVec A z := by
  funext a; unfold mulVec; rw [dot_sub_right]; rfl

theorem mulVec_smul (A : Mat f R) (t : R) (y : Vec f R) :
    mulVec A (fun a => t * y a) = fun a => t * mulVec A y a := by
  funext a; unfold mulVec; rw [dot_smul_right]

theorem mulVec_zero (A : Mat f R) : mulVec A 0 = 0 := by
  funext a; simp [mulVec, dot]

/-- A symmetric matrix is self-adjoint. -/
theorem dot_mulVec_symm {A : Mat f R} (h : ∀ a b, A a b = A b a) (x y : Vec f R) :
    dot x (mulVec A y) = dot y (mulVec A x) := by
  unfold mulVec dot
  simp only [Finset.mul_sum]
  rw [Finset.sum_comm]
  refine Finset.sum_congr rfl (fun i _ => Finset.sum_congr rfl (fun j _ => ?_))
  rw [h j i]; ring

/-- Sum of `g e` over the stored entries as a matrix form. -/
theorem gram_symm (Y : List (Vec f R)) (a b : Fin f) : gram Y a b = gram Y b a := by
  unfold gram; congr 1; exact List.map_congr_left (fun y _ => mul_comm _ _)

theorem list_sum_mul_left {α : Type} (l : List α) (g : α → R) (t : R) :
    t * (l.map g).sum = (l.map fun x => t * g x).sum := by
  induction l with
  | nil => simp
  | cons x l ih => simp [mul_add, ih]

theorem finset_sum_list_sum {ι α : Type} (s : Finset ι) (l : List α) (g : ι → α → R) :
    ∑ i ∈ s, (l.map (g i)).sum = (l.map fun x => ∑ i ∈ s, g i x).sum := by
  induction l with
  | nil => simp
  | cons x l ih => simp [Finset.sum_add_distrib, ih]

theorem mulVec_gram (Y : List (Vec f R)) (x : Vec f R) (a : Fin f) :
    mulVec (gram Y) x a = (Y.map fun y => dot y x * y a).sum := by
  unfold mulVec gram
  unfold dot
  simp only [mul_comm _ (x _), list_sum_mul_left]
  rw [finset_sum_list_sum]
  congr 1
  refine List.map_congr_left (fun y _ => ?_)
  rw [Finset.sum_mul]
  exact Finset.sum_congr rfl (fun j _ => by ring)

theorem dot_list_sum {α : Type} (v : Vec f R) (l : List α) (g : α → Vec f R) :
    dot v (fun a => (l.map fun y => g y a).sum) = (l.map fun y => dot v (g y)).sum := by
  unfold dot
  simp only [list_sum_mul_left]
  rw [finset_sum_list_sum]

theorem dot_mulVec_gram (Y : List (Vec f R)) (x v : Vec f R) :
    dot v (mulVec (gram Y) x) = (Y.map fun y => dot y x * dot y v).sum := by
  have : mulVec (gram Y) x = fun a => (Y.map fun y => dot y x * y a).sum :=
    funext (mulVec_gram Y x)
  rw [this, dot_list_sum]
  congr 1
  refine List.map_congr_left (fun y _ => ?_)
  rw [dot_smul_right, dot_comm v]

theorem mulVec_regularised (G : Mat f R) (reg : R) (x : Vec f R) :
    mulVec (regularised G reg) x = axpy reg x (mulVec G x) := by
  funext a
  unfold mulVec regularised axpy
  unfold dot
  simp only [add_mul, Finset.sum_add_distrib]
  congr 1
  simp [mul_assoc]

/-! ## The accumulation loop in closed form -/

/-- Confidence of a stored entry. -/
def conf (c : R) : R := if 0 < c then c else -c

theorem conf_eq_abs [IsStrictOrderedRing R] (c : R) : conf c = |c| := by
  unfold conf; split_ifs with h
  · rw [abs_of_pos h]
  · rw [abs_of_nonpos (not_lt.mp h)]

/-- Right-hand side weight of a stored entry. -/
def gain (c : R) : R := if 0 < c then c else 0

theorem accumulate_eq (s : Mat f R × Vec f R) (e : Vec f R × R) :
    accumulate s e = (fun a b => s.1 a b + (conf e.2 - 1) * e.1 a * e.1 b,
      fun a => s.2 a + gain e.2 * e.1 a) := by
  unfold accumulate conf gain
  split_ifs <;> simp

theorem foldl_accumulate (es : List (Vec f R × R)) (s : Mat f R × Vec f R) :
    es.foldl accumulate s =
      (fun a b => s.1 a b + (es.map fun e => (conf e.2 - 1) * e.1 a * e.1 b).sum,
       fun a => s.2 a + (es.map fun e => gain e.2 * e.1 a).sum) := by
  induction es generalizing s with
  | nil => simp
  | cons e es ih =>
    rw [List.foldl_cons, ih, accumulate_eq]
    simp only [List.map_cons, List.sum_cons, Prod.mk.injEq]
    exact ⟨by funext a b; ring, by funext a; ring⟩

theorem linearEquation_fst (G : Mat f R) (reg : R) (es : List (Vec f R × R)) (a b : Fin f) :
    (linearEquation G reg es).1 a b =
      regularised G reg a b + (es.map fun e => (conf e.2 - 1) * e.1 a * e.1 b).sum := by
  unfold linearEquation; rw [foldl_accumulate]

theorem linearEquation_snd (G : Mat f R) (reg : R) (es : List (Vec f R × R)) (a : Fin f) :
    (linearEquation G reg es).2 a = (es.map fun e => gain e.2 * e.1 a).sum := by
  unfold linearEquation; rw [foldl_accumulate]; simp

theorem mulVec_linearEquation (G : Mat f R) (reg : R) (es : List (Vec f R × R)) (x : Vec f R)
    (a : Fin f) :
    mulVec (linearEquation G reg es).1 x a = mulVec G x a + reg * x a +
      (es.map fun e => (conf e.2 - 1) * dot e.1 x * e.1 a).sum := by
  have h1 : mulVec (linearEquation G reg es).1 x a =
      mulVec (regularised G reg) x a +
        ∑ b, (es.map fun e => (conf e.2 - 1) * e.1 a * e.1 b).sum * x b := by
    unfold mulVec
    unfold dot
    rw [← Finset.sum_add_distrib]
    refine Finset.sum_congr rfl (fun b _ => ?_)
    rw [linearEquation_fst]; ring
  rw [h1, mulVec_regularised]
  unfold axpy
  congr 1
  simp only [mul_comm _ (x _), list_sum_mul_left]
  rw [finset_sum_list_sum]
  congr 1
  refine List.map_congr_left (fun e _ => ?_)
  unfold dot
  rw [mul_assoc, Finset.sum_mul, Finset.mul_sum]
  exact Finset.sum_congr rfl (fun j _ => by ring)

theorem dot_mulVec_linearEquation (Y : List (Vec f R)) (reg : R) (es : List (Vec f R × R))
    (x v : Vec f R) :
    dot v (mulVec (linearEquation (gram Y) reg es).1 x) =
      (Y.map fun y => dot y x * dot y v).sum + reg * dot v x +
      (es.map fun e => (conf e.2 - 1) * dot e.1 x * dot e.1 v).sum := by
  have : mulVec (linearEquation (gram Y) reg es).1 x =
      (mulVec (gram Y) x + fun a => reg * x a) +
        fun a => (es.map fun e => (conf e.2 - 1) * dot e.1 x * e.1 a).sum := by
    funext a; rw [mulVec_linearEquation]; rfl
  rw [this, dot_add_right, dot_add_right, dot_mulVec_gram, dot_smul_right, dot_list_sum]
  congr 2
  refine List.map_congr_left (fun e _ => ?_)
  rw [dot_smul_right, dot_comm v]

theorem dot_linearEquation_snd (G : Mat f R) (reg : R) (es : List (Vec f R × R)) (v : Vec f R) :
    dot v (linearEquation G reg es).2 = (es.map fun e => gain e.2 * dot e.1 v).sum := by
  have : (linearEquation G reg es).2 = fun a => (es.map fun e => gain e.2 * e.1 a).sum :=
    funext (linearEquation_snd G reg es)
  rw [this, dot_list_sum]
  congr 1
  refine List.map_congr_left (fun e _ => ?_)
  rw [dot_smul_right, dot_comm v]

theorem linearEquation_symm {G : Mat f R} (hG : ∀ a b, G a b = G b a) (reg : R)
    (es : List (Vec f R × R)) (a b : Fin f) :
    (linearEquation G reg es).1 a b = (linearEquation G reg es).1 b a := by
  rw [linearEquation_fst, linearEquation_fst]
  congr 1
  · unfold regularised; rw [hG]; simp [eq_comm]
  · congr 1; exact List.map_congr_left (fun e _ => by ring)

/-! ## Entries of a row -/

theorem rowEntries_eq {err : Err} {Y : List (Vec f R)} {row : List (Nat × R)}
    (h : ∀ e ∈ row, e.1 < Y.length) :
    rowEntries err Y row = .ok (row.map fun e => (Y[e.1]?.getD 0, e.2)) := by
  induction row with
  | nil => rfl
  | cons e row ih =>
    obtain ⟨i, c⟩ := e
    have hi : i < Y.length := h (i, c) (by simp)
    unfold rowEntries
    rw [List.getElem?_eq_getElem hi, ih (fun e he => h e (by simp [he]))]
    simp [bind, Except.bind, pure, Except.pure, hi]

theorem rowEntries_ok_iff {err : Err} {Y : List (Vec f R)} {row : List (Nat × R)}
    {es : List (Vec f R × R)} (h : rowEntries err Y row = .ok es) :
    (∀ e ∈ row, e.1 < Y.length) ∧ es = row.map fun e => (Y[e.1]?.getD 0, e.2) := by
  have hb : ∀ e ∈ row, e.1 < Y.length := by
    induction row generalizing es with
    | nil => simp
    | cons e row ih =>
      obtain ⟨i, c⟩ := e
      unfold rowEntries at h
      cases hy : Y[i]? with
      | none => rw [hy] at h; cases h
      | some y =>
        rw [hy] at h
        cases hr : rowEntries err Y row with
        | error e => rw [hr] at h; cases h
        | ok es' =>
          intro e' he'
          rcases List.mem_cons.mp he' with rfl | he'
          · exact (List.getElem?_eq_some_iff.mp hy).1
          · exact ih hr e' he'
  refine ⟨hb, ?_⟩
  rw [rowEntries_eq hb] at h
  cases h; rfl

/-! ## Dense sums against sparse rows -/

theorem sum_lookup {n : Nat} (row : List (Nat × R)) (hnd : (row.map Prod.fst).Nodup)
    (hlt : ∀ e ∈ row, e.1 < n) (g : Nat → Option R → R) :
    ∑ i : Fin n, g i (row.lookup i.1) =
      ∑ i : Fin n, g i none + (row.map fun e => g e.1 (some e.2) - g e.1 none).sum := by
  induction row with
  | nil => simp
  | cons e row ih =>
    obtain ⟨k, c⟩ := e
    simp only [List.map_cons, List.nodup_cons, List.mem_map, not_exists, not_and] at hnd
    have hk : k < n := hlt (k, c) (by simp)
    have hnone : row.lookup k = none := by
      rw [List.lookup_eq_none_iff]
      intro p hp
      have := hnd.1 p hp
      exact bne_iff_ne.mpr (fun h => this h.symm)
    have key : ∑ i : Fin n, g i (((k, c) :: row).lookup i.1) =
        ∑ i : Fin n, g i (row.lookup i.1) + (g k (some c) - g k none) := by
      rw [← sub_eq_iff_eq_add', ← Finset.sum_sub_distrib]
      rw [Finset.sum_eq_single (⟨k, hk⟩ : Fin n)]
      · simp [hnone]
      · intro i _ hi
        have : (i.1 == k) = false := by
          rw [beq_eq_false_iff_ne]; intro h; exact hi (Fin.ext h)
        simp [List.lookup_cons, this]
      · simp
    rw [key, ih hnd.2 (fun e he => hlt e (by simp [he]))]
    simp only [List.map_cons, List.sum_cons]
    ring

theorem sum_fin_getElem (Y : List (Vec f R)) (g : Vec f R → R) :
    ∑ i : Fin Y.length, g Y[i] = (Y.map g).sum := by
  induction Y with
  | nil => simp
  | cons y Y ih =>
    rw [List.map_cons, List.sum_cons, ← ih]
    exact Fin.sum_univ_succ (n := Y.length) (fun i => g (y :: Y)[i])

variable [IsStrictOrderedRing R]

/-- The dense loss of a vector is the quadratic function of the linear system, up to a constant. -/
theorem rowLoss_eq (Y : List (Vec f R)) (row : List (Nat × R)) (hnd : (row.map Prod.fst).Nodup)
    (hlt : ∀ e ∈ row, e.1 < Y.length) (reg : R) (x : Vec f R) :
    Spec.rowLoss Y row reg x =
      dot x (mulVec (linearEquation (gram Y) reg (row.map fun e => (Y[e.1]?.getD 0, e.2))).1 x) -
      2 * dot x (linearEquation (gram Y) reg (row.map fun e => (Y[e.1]?.getD 0, e.2))).2 +
      (row.map fun e => gain e.2).sum := by
  set g : Nat → Option R → R := fun i o =>
    (match o with | none => 1 | some c => |c|) *
      ((match o with | none => 0 | some c => if 0 < c then 1 else 0) -
        dot x (Y[i]?.getD 0)) ^ 2 with hg
  have h1 : Spec.rowLoss Y row reg x = ∑ i : Fin Y.length, g i (row.lookup i.1) + reg * dot x x := by
    unfold Spec.rowLoss
    congr 1
    · refine Finset.sum_congr rfl (fun i _ => ?_)
      simp only [hg, Spec.confidence, Spec.preference]
      rw [List.getElem?_eq_getElem i.2]
      rfl
    · congr 1; unfold dot; exact Finset.sum_congr rfl (fun j _ => by ring)
  rw [h1, sum_lookup row hnd hlt, dot_mulVec_linearEquation, dot_linearEquation_snd]
  have h2 : ∑ i : Fin Y.length, g i none = (Y.map fun y => dot y x * dot y x).sum := by
    rw [← sum_fin_getElem]
    refine Finset.sum_congr rfl (fun i _ => ?_)
    simp only [hg]
    rw [List.getElem?_eq_getElem i.2, dot_comm x]
    simp only [Option.getD_some, Fin.getElem_fin]
    ring
  rw [h2]
  have h3 : ∀ row' : List (Nat × R),
      (row'.map fun e => g e.1 (some e.2) - g e.1 none).sum =
        ((row'.map fun e => ((Y[e.1]?.getD 0 : Vec f R), e.2)).map fun e =>
          (conf e.2 - 1) * dot e.1 x * dot e.1 x).sum -
        2 * ((row'.map fun e => ((Y[e.1]?.getD 0 : Vec f R), e.2)).map fun e =>
          gain e.2 * dot e.1 x).sum + (row'.map fun e => gain e.2).sum := by
    intro row'
    induction row' with
    | nil => simp
    | cons e row' ih =>
      simp only [List.map_cons, List.sum_cons, ih]
      have : g e.1 (some e.2) - g e.1 none =
          (conf e.2 - 1) * dot (Y[e.1]?.getD 0) x * dot (Y[e.1]?.getD 0) x -
            2 * (gain e.2 * dot (Y[e.1]?.getD 0) x) + gain e.2 := by
        simp only [hg, ← conf_eq_abs, dot_comm x, conf, gain]
        split_ifs <;> ring
      rw [this]; ring
  rw [h3]
  ring

theorem dot_self_nonneg' (x : Vec f R) : 0 ≤ dot x x :=
  Finset.sum_nonneg (fun i _ => mul_self_nonneg _)

theorem dot_self_pos {x : Vec f R} (h : x ≠ 0) : 0 < dot x x := by
  refine lt_of_le_of_ne (dot_self_nonneg' x) (fun h0 => h ?_)
  funext i
  have := (Finset.sum_eq_zero_iff_of_nonneg (fun _ _ => mul_self_nonneg _)).mp h0.symm i
    (Finset.mem_univ i)
  exact mul_self_eq_zero.mp this

theorem dot_self_zero {x : Vec f R} (h : dot x x = 0) : x = 0 := by
  by_contra hx
  exact (dot_self_pos hx).ne' h

/-- The system of a row without repeated columns is positive definite when the regularisation is
positive: the dense confidences are non-negative. -/
theorem linearEquation_posDef (Y : List (Vec f R)) (row : List (Nat × R))
    (hnd : (row.map Prod.fst).Nodup) (hlt : ∀ e ∈ row, e.1 < Y.length) {reg : R} (hreg : 0 < reg) :
    PosDef (linearEquation (gram Y) reg (row.map fun e => (Y[e.1]?.getD 0, e.2))).1 := by
  refine ⟨linearEquation_symm (gram_symm Y) reg _, fun x hx => ?_⟩
  rw [dot_mulVec_linearEquation]
  have hpos := mul_pos hreg (dot_self_pos hx)
  suffices h : 0 ≤ (Y.map fun y => dot y x * dot y x).sum +
      ((row.map fun e => ((Y[e.1]?.getD 0 : Vec f R), e.2)).map fun e =>
        (conf e.2 - 1) * dot e.1 x * dot e.1 x).sum by linarith
  set g : Nat → Option R → R := fun i o =>
    (match o with | none => 1 | some c => |c|) * (dot (Y[i]?.getD 0) x * dot (Y[i]?.getD 0) x)
    with hg
  have h1 := sum_lookup row hnd hlt g
  have h2 : ∑ i : Fin Y.length, g i none = (Y.map fun y => dot y x * dot y x).sum := by
    rw [← sum_fin_getElem]
    refine Finset.sum_congr rfl (fun i _ => ?_)
    simp only [hg]
    rw [List.getElem?_eq_getElem i.2]
    simp
  have h3 : (row.map fun e => g e.1 (some e.2) - g e.1 none).sum =
      ((row.map fun e => ((Y[e.1]?.getD 0 : Vec f R), e.2)).map fun e =>
        (conf e.2 - 1) * dot e.1 x * dot e.1 x).sum := by
    rw [List.map_map]
    congr 1
    refine List.map_congr_left (fun e _ => ?_)
    simp only [hg, Function.comp, conf_eq_abs]
    ring
  rw [← h2, ← h3, ← h1]
  refine Finset.sum_nonneg (fun i _ => ?_)
  simp only [hg]
  refine mul_nonneg ?_ (mul_self_nonneg _)
  cases row.lookup i.1 with
  | none => simp
  | some c => exact abs_nonneg c

/-! ## Quadratic functions -/

/-- Completing the square. -/
theorem quad_eq {A : Mat f R} (hs : ∀ a b, A a b = A b a) {b x : Vec f R} (hx : mulVec A x = b)
    (z : Vec f R) :
    dot z (mulVec A z) - 2 * dot z b =
      dot x (mulVec A x) - 2 * dot x b + dot (z - x) (mulVec A (z - x)) := by
  subst hx
  rw [mulVec_sub, dot_sub_right, dot_sub_left, dot_sub_left]
  have := dot_mulVec_symm hs x z
  linear_combination this

theorem quad_le {A : Mat f R} (hA : PosDef A) {b x : Vec f R} (hx : mulVec A x = b) (z : Vec f R) :
    dot x (mulVec A x) - 2 * dot x b ≤ dot z (mulVec A z) - 2 * dot z b := by
  rw [quad_eq hA.symm hx z]
  by_cases h : z - x = 0
  · rw [h, mulVec_zero, dot_zero_right']; simp
  · linarith [hA.pos _ h]

theorem quad_lt {A : Mat f R} (hA : PosDef A) {b x : Vec f R} (hx : mulVec A x = b) {z : Vec f R}
    (hz : z ≠ x) :
    dot x (mulVec A x) - 2 * dot x b < dot z (mulVec A z) - 2 * dot z b := by
  rw [quad_eq hA.symm hx z]
  linarith [hA.pos _ (sub_ne_zero.mpr hz)]

theorem posDef_unique {A : Mat f R} (hA : PosDef A) {b x y : Vec f R} (hx : mulVec A x = b)
    (hy : mulVec A y = b) : x = y := by
  by_contra h
  have := hA.pos _ (sub_ne_zero.mpr h)
  rw [mulVec_sub, hx, hy, sub_self, dot_zero_right'] at this
  exact lt_irrefl _ this

end Implicit
