import Verif.Spec.Symmetry
import Verif.Lemmas.ALS
/-! # Rotating the factors -/

set_option linter.unusedSectionVars false

namespace Implicit

open Spec (Orthonormal rotate)

variable {R : Type} [LinearOrder R] [Field R] {f : Nat}

theorem dot_rotate {Q : Mat f R} (hQ : Orthonormal Q) (x y : Vec f R) : dot (rotate Q x) (rotate Q y) = dot x y := by
  unfold dot rotate
  calc ∑ a, (∑ c, x c * Q c a) * (∑ d, y d * Q d a)
      = ∑ a, ∑ c, ∑ d, x c * y d * (Q c a * Q d a) := by
        refine Finset.sum_congr rfl fun a _ => ?_
        rw [Finset.sum_mul]
        refine Finset.sum_congr rfl fun c _ => ?_
        rw [Finset.mul_sum]
        exact Finset.sum_congr rfl fun d _ => by ring
    _ = ∑ c, ∑ d, x c * y d * ∑ a, Q c a * Q d a := by
        rw [Finset.sum_comm]
        refine Finset.sum_congr rfl fun c _ => ?_
        rw [Finset.sum_comm]
        refine Finset.sum_congr rfl fun d _ => ?_
        rw [Finset.mul_sum]
    _ = ∑ c, x c * y c := by
        refine Finset.sum_congr rfl fun c _ => ?_
        have : ∀ d, x c * y d * ∑ a, Q c a * Q d a = if c = d then x c * y d else 0 := by
          intro d
          rw [hQ c d]
          split <;> simp
        rw [Finset.sum_congr rfl fun d _ => this d]
        simp

theorem rotate_axpy (Q : Mat f R) (t : R) (y r : Vec f R) : rotate Q (axpy t y r) = axpy t (rotate Q y) (rotate Q r) := by
  funext a
  unfold rotate axpy
  rw [Finset.mul_sum, ← Finset.sum_add_distrib]
  exact Finset.sum_congr rfl fun c _ => by ring

theorem rotate_smul (Q : Mat f R) (t : R) (y : Vec f R) : rotate Q (fun a => t * y a) = fun a => t * rotate Q y a := by
  funext a
  unfold rotate
  rw [Finset.mul_sum]
  exact Finset.sum_congr rfl fun c _ => by ring

theorem rotate_zero (Q : Mat f R) : rotate Q (fun _ => 0) = fun _ => 0 := by
  funext a; simp [rotate]

theorem rotate_list_sum {α : Type} (Q : Mat f R) (l : List α) (g : α → R) (v : α → Vec f R) :
    rotate Q (fun a => (l.map fun e => g e * v e a).sum) = fun a => (l.map fun e => g e * rotate Q (v e) a).sum := by
  funext a
  unfold rotate
  induction l with
  | nil => simp
  | cons e l ih =>
    simp only [List.map_cons, List.sum_cons, add_mul, Finset.sum_add_distrib, ih]
    congr 1
    rw [Finset.mul_sum]
    exact Finset.sum_congr rfl fun c _ => by ring

variable {Q : Mat f R}

theorem mulVec_gram_rotate (hQ : Orthonormal Q) (Y : List (Vec f R)) (x : Vec f R) :
    mulVec (gram (Y.map (rotate Q))) (rotate Q x) = rotate Q (mulVec (gram Y) x) := by
  have : mulVec (gram Y) x = fun a => (Y.map fun y => dot y x * y a).sum := funext (mulVec_gram Y x)
  rw [this, rotate_list_sum Q Y (fun y => dot y x) (fun y => y)]
  funext a
  rw [mulVec_gram, List.map_map]
  congr 1
  refine List.map_congr_left fun y _ => ?_
  simp only [Function.comp_apply, dot_rotate hQ]

theorem mulVec_regularised_rotate (hQ : Orthonormal Q) (Y : List (Vec f R)) (reg : R) (x : Vec f R) :
    mulVec (regularised (gram (Y.map (rotate Q))) reg) (rotate Q x) = rotate Q (mulVec (regularised (gram Y) reg) x) := by
  rw [mulVec_regularised, mulVec_regularised, rotate_axpy, mulVec_gram_rotate hQ]

/-- Entries with rotated factors. -/
def rotateEntries (Q : Mat f R) (es : List (Vec f R × R)) : List (Vec f R × R) := es.map fun e => (rotate Q e.1, e.2)

theorem rowEntries_rotate (err : Err) (Q : Mat f R) (Y : List (Vec f R)) (row : List (Nat × R)) :
    rowEntries err (Y.map (rotate Q)) row = (rowEntries err Y row).map (rotateEntries Q) := by
  induction row with
  | nil => rfl
  | cons e row ih =>
    obtain ⟨i, c⟩ := e
    unfold rowEntries
    rw [List.getElem?_map]
    cases Y[i]? with
    | none => rfl
    | some y =>
      simp only [Option.map_some, ih]
      cases rowEntries err Y row <;> rfl

theorem mulVec_linearEquation_rotate (hQ : Orthonormal Q) (Y : List (Vec f R)) (reg : R) (es : List (Vec f R × R))
    (x : Vec f R) :
    mulVec (linearEquation (gram (Y.map (rotate Q))) reg (rotateEntries Q es)).1 (rotate Q x) =
      rotate Q (mulVec (linearEquation (gram Y) reg es).1 x) := by
  have h1 : mulVec (linearEquation (gram Y) reg es).1 x =
      axpy 1 (fun a => (es.map fun e => ((conf e.2 - 1) * dot e.1 x) * e.1 a).sum) (axpy reg x (mulVec (gram Y) x)) := by
    funext a
    rw [mulVec_linearEquation]
    simp only [axpy]
    ring
  rw [h1, rotate_axpy, rotate_axpy, rotate_list_sum Q es (fun e => (conf e.2 - 1) * dot e.1 x) Prod.fst,
    ← mulVec_gram_rotate hQ]
  funext a
  rw [mulVec_linearEquation]
  simp only [axpy, rotateEntries, List.map_map, Function.comp_def, dot_rotate hQ]
  ring

theorem linearEquation_snd_rotate (Q : Mat f R) (G G' : Mat f R) (reg : R) (es : List (Vec f R × R)) :
    (linearEquation G' reg (rotateEntries Q es)).2 = rotate Q (linearEquation G reg es).2 := by
  have : (linearEquation G reg es).2 = fun a => (es.map fun e => gain e.2 * e.1 a).sum :=
    funext (linearEquation_snd G reg es)
  rw [this, rotate_list_sum Q es (fun e => gain e.2) Prod.fst]
  funext a
  rw [linearEquation_snd]
  simp only [rotateEntries, List.map_map, Function.comp_def]

theorem cgResidual_rotate (hQ : Orthonormal Q) (Y : List (Vec f R)) (reg : R) (es : List (Vec f R × R)) (x : Vec f R) :
    cgResidual (regularised (gram (Y.map (rotate Q))) reg) (rotateEntries Q es) (rotate Q x) =
      rotate Q (cgResidual (regularised (gram Y) reg) es x) := by
  unfold cgResidual rotateEntries
  rw [List.foldl_map, mulVec_regularised_rotate hQ]
  have h0 : (fun a => -1 * rotate Q (mulVec (regularised (gram Y) reg) x) a) =
      rotate Q (fun a => -1 * mulVec (regularised (gram Y) reg) x a) := (rotate_smul Q (-1) _).symm
  rw [h0]
  generalize (fun a => -1 * mulVec (regularised (gram Y) reg) x a) = r
  induction es generalizing r with
  | nil => rfl
  | cons e es ih =>
    simp only [dot_rotate hQ] at ih ⊢
    rw [List.foldl_cons, List.foldl_cons, ← ih]
    congr 1
    by_cases h : 0 < e.2
    · simp only [h, if_true, rotate_axpy]
    · simp only [h, if_false, rotate_axpy]

theorem cgApply_rotate (hQ : Orthonormal Q) (Y : List (Vec f R)) (reg : R) (es : List (Vec f R × R)) (x : Vec f R) :
    cgApply (regularised (gram (Y.map (rotate Q))) reg) (rotateEntries Q es) (rotate Q x) =
      rotate Q (cgApply (regularised (gram Y) reg) es x) := by
  unfold cgApply rotateEntries
  rw [List.foldl_map, mulVec_regularised_rotate hQ]
  generalize mulVec (regularised (gram Y) reg) x = r
  induction es generalizing r with
  | nil => rfl
  | cons e es ih =>
    simp only [dot_rotate hQ] at ih ⊢
    rw [List.foldl_cons, List.foldl_cons, ← ih, rotate_axpy]

/-- The state of conjugate gradients in the other basis. -/
def rotateCG (Q : Mat f R) (s : CG f R) : CG f R := ⟨rotate Q s.x, rotate Q s.r, rotate Q s.p, s.rsold⟩

theorem cgStep_rotate (hQ : Orthonormal Q) {apply apply' : Vec f R → Vec f R} (h : ∀ p, apply' (rotate Q p) = rotate Q (apply p))
    (s : CG f R) : cgStep apply' (rotateCG Q s) = rotateCG Q (cgStep apply s) := by
  unfold cgStep rotateCG
  simp only [h, dot_rotate hQ, ← rotate_axpy, ← rotate_smul]

theorem cgLoop_rotate (hQ : Orthonormal Q) {apply apply' : Vec f R → Vec f R} (h : ∀ p, apply' (rotate Q p) = rotate Q (apply p))
    (tol : R) (n : Nat) (s : CG f R) : cgLoop apply' tol n (rotateCG Q s) = rotate Q (cgLoop apply tol n s) := by
  induction n generalizing s with
  | zero => rfl
  | succ n ih =>
    unfold cgLoop
    simp only [cgStep_rotate hQ h]
    split
    · rename_i hlt
      rw [if_pos (show (cgStep apply s).rsold < tol from hlt)]
      rfl
    · rename_i hlt
      rw [if_neg (show ¬ (cgStep apply s).rsold < tol from hlt), ih]

theorem cgSolve_rotate (hQ : Orthonormal Q) (Y : List (Vec f R)) (reg tol : R) (steps : Nat) (es : List (Vec f R × R)) (x : Vec f R) :
    cgSolve (regularised (gram (Y.map (rotate Q))) reg) tol steps (rotateEntries Q es) (rotate Q x) =
      rotate Q (cgSolve (regularised (gram Y) reg) tol steps es x) := by
  unfold cgSolve
  simp only [cgResidual_rotate hQ, dot_rotate hQ]
  split
  · rfl
  · exact cgLoop_rotate hQ (cgApply_rotate hQ Y reg es) tol steps
      ⟨x, cgResidual (regularised (gram Y) reg) es x, cgResidual (regularised (gram Y) reg) es x,
        dot (cgResidual (regularised (gram Y) reg) es x) (cgResidual (regularised (gram Y) reg) es x)⟩

theorem mapM_map_result {α β γ : Type} {g : α → Except Err β} {g' : α → Except Err γ} {h : β → γ} {l : List α}
    (hg : ∀ x ∈ l, g' x = (g x).map h) : l.mapM g' = (l.mapM g).map (List.map h) := by
  induction l with
  | nil => rfl
  | cons x l ih =>
    rw [List.mapM_cons, List.mapM_cons, hg x (by simp), ih (fun y hy => hg y (by simp [hy]))]
    cases g x with
    | error e => rfl
    | ok y => cases l.mapM g <;> rfl

end Implicit
