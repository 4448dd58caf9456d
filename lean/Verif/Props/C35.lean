import Verif.Lemmas.BPR
import Verif.Spec.BPR
import Mathlib.Data.Rat.Floor
import Mathlib.Algebra.Order.BigOperators.Group.Finset
import Mathlib.Data.Fintype.BigOperators

/-!
# C35 — BPR never trains against an item the user liked

`matrix` is the matrix given to `fit`, its rows in any column order; `l`, `d` are the drawn
indices of the positive and negative entry.
-/

set_option linter.unusedSectionVars false

namespace Implicit

open Spec

variable {R : Type} [LinearOrder R] [Field R]

theorem bprRows_stored (verify : Bool) (matrix : List (List Nat)) (u i : Nat) :
    Likes (bprRows verify matrix) u i ↔ Likes matrix u i := by
  obtain ⟨hlen, hspec⟩ := bprRows_spec verify matrix
  constructor
  · rintro ⟨r, hr, hi⟩
    obtain ⟨r', h1, h2, _⟩ := hspec u r hr
    exact ⟨r', h1, h2.mem_iff.mp hi⟩
  · rintro ⟨r', hr', hi⟩
    obtain ⟨hu, _⟩ := List.getElem?_eq_some_iff.mp hr'
    have hu' : u < (bprRows verify matrix).length := by omega
    obtain ⟨r'', h1, h2, _⟩ := hspec u _ (List.getElem?_eq_getElem hu')
    rw [hr'] at h1
    cases h1
    exact ⟨_, List.getElem?_eq_getElem hu', h2.mem_iff.mpr hi⟩

theorem bprRows_nnz (verify : Bool) (matrix : List (List Nat)) :
    (bprRows verify matrix).flatten.length = nnz matrix := by
  unfold bprRows nnz
  by_cases hc : (verify && !(matrix.all fun r => decide (r.Pairwise (· ≤ ·)))) = true
  · rw [if_pos hc, List.length_flatten, List.map_map]
    congr 1
    exact List.map_congr_left fun r _ => by simp
  · rw [if_neg hc, List.length_flatten]

theorem bprRows_sorted (matrix : List (List Nat)) :
    ∀ r ∈ bprRows true matrix, r.Pairwise (· ≤ ·) := by
  intro r hr
  obtain ⟨u, hu, rfl⟩ := List.getElem_of_mem hr
  obtain ⟨_, _, _, h⟩ := (bprRows_spec true matrix).2 u _ (List.getElem?_eq_getElem hu)
  exact h rfl

/-- The choice for one sample: never undefined behaviour, the positive item is stored in the user's
row, and the sample is skipped exactly when the negative one is stored there too (and the check is
enabled). -/
theorem C35_choice (verify : Bool) (matrix : List (List Nat)) (l d : Nat) (hl : l < nnz matrix)
    (hd : d < nnz matrix) :
    ∃ u i j, Likes matrix u i ∧ (∃ u', Likes matrix u' j) ∧
      ((bprChoose verify (bprRows verify matrix) l d = .ok none ∧ verify = true ∧ Likes matrix u j) ∨
       (bprChoose verify (bprRows verify matrix) l d = .ok (some ⟨u, i, j⟩) ∧
          (verify = true → ¬ Likes matrix u j))) := by
  rw [← bprRows_nnz verify] at hl hd
  obtain ⟨u, i, j, r, hi, hu, hj, hr, hir, hc⟩ := bprChoose_ok verify (bprRows verify matrix)
    (fun hv => by subst hv; exact bprRows_sorted matrix) l d hl hd
  obtain ⟨u', r', _, hr', hj'⟩ := userids_spec (bprRows verify matrix) d j hj
  have hst : ∀ x, Likes matrix u x ↔ x ∈ r := by
    intro x
    rw [← bprRows_stored verify]
    constructor
    · rintro ⟨r2, h1, h2⟩
      rw [hr] at h1; cases h1; exact h2
    · exact fun h => ⟨r, hr, h⟩
  refine ⟨u, i, j, (hst i).mpr hir, ⟨u', (bprRows_stored verify matrix u' j).mp ⟨r', hr', hj'⟩⟩, ?_⟩
  by_cases hx : verify = true ∧ j ∈ r
  · left
    rw [if_pos hx] at hc
    exact ⟨hc, hx.1, (hst j).mpr hx.2⟩
  · right
    rw [if_neg hx] at hc
    exact ⟨hc, fun hv hs => hx ⟨hv, (hst j).mp hs⟩⟩

/-- The rows an instruction works on. -/
def BprInstr.triple? : BprInstr → Option BprTriple
  | .loadUser t _ | .loadLiked t _ | .loadDisliked t _ | .storeUser t _ | .storeLiked t _
  | .storeDisliked t _ | .storeLikedBias t _ | .storeDislikedBias t _ => some t
  | .skip | .zero | .score | .logistic | .keep => none

/-- The same for the CUDA kernel. -/
def GpuBprInstr.triple? : GpuBprInstr R → Option BprTriple
  | .loadUser t _ | .loadLiked t _ | .loadDisliked t _ | .storeUser t _ | .storeLiked t _
  | .storeDisliked t _ => some t
  | .skip | .logistic _ => none

theorem bprUpdateProg_triple (factors : Nat) (t t' : BprTriple) (i : BprInstr)
    (hi : i ∈ bprUpdateProg factors t) (ht : i.triple? = some t') : t' = t := by
  unfold bprUpdateProg bprScoreRound bprUpdateRound at hi
  simp only [List.mem_append, List.mem_flatMap, List.mem_cons, List.not_mem_nil, or_false] at hi
  rcases hi with (((rfl | ⟨j, _, rfl | rfl | rfl | rfl⟩) | rfl) |
    ⟨j, _, rfl | rfl | rfl | rfl | rfl | rfl | rfl | rfl | rfl⟩) | rfl | rfl | rfl | rfl <;>
    simp [BprInstr.triple?] at ht <;> exact ht.symm

theorem bprProg_triple (verify : Bool) (matrix : List (List Nat)) (factors : Nat) (d : Nat × Nat)
    (h1 : d.1 < nnz matrix) (h2 : d.2 < nnz matrix) (i : BprInstr)
    (hi : i ∈ bprProg verify (bprRows verify matrix) factors d) (t : BprTriple)
    (ht : i.triple? = some t) :
    Likes matrix t.user t.liked ∧ (∃ u, Likes matrix u t.disliked) ∧
      (verify = true → ¬ Likes matrix t.user t.disliked) := by
  obtain ⟨u, a, b, hs, hs', h | h⟩ := C35_choice verify matrix d.1 d.2 h1 h2
  · unfold bprProg at hi
    rw [h.1] at hi
    have : i = .skip := by simpa using hi
    subst this; simp [BprInstr.triple?] at ht
  · unfold bprProg at hi
    rw [h.1] at hi
    obtain rfl := bprUpdateProg_triple factors _ t i hi ht
    exact ⟨hs, hs', h.2⟩

/-- **BPR on the CPU.**  In every epoch, whatever the draws, the number of threads and the
interleaving, every instruction that reads or writes factors works on a positive item stored in the
user's row and, with `verify_negative_samples`, a negative item that is not. -/
theorem C35_cpu {Th : Type} [DecidableEq Th] [Fintype Th] (verify : Bool)
    (matrix : List (List Nat)) (factors : Nat) (e : BprEpoch Th)
    (he : e.Valid verify (bprRows verify matrix) factors) (p : Th × BprInstr)
    (hp : p ∈ e.schedule) (t : BprTriple) (ht : p.2.triple? = some t) :
    Likes matrix t.user t.liked ∧ (∃ u, Likes matrix u t.disliked) ∧
      (verify = true → ¬ Likes matrix t.user t.disliked) := by
  have hm := mem_streamOf hp
  rw [he.schedule p.1] at hm
  obtain ⟨d, hd, hi⟩ := List.mem_flatMap.mp hm
  obtain ⟨h1, h2⟩ := he.draws p.1 d hd
  rw [bprRows_nnz] at h1 h2
  exact bprProg_triple verify matrix factors d h1 h2 p.2 hi t ht

theorem gpuBprProg_triple (verify : Bool) (matrix : List (List Nat))
    (task : Nat × (Nat × Nat) × R) (h0 : 0 < nnz matrix) (i : GpuBprInstr R)
    (hi : i ∈ gpuBprProg verify (bprRows verify matrix) task) (t : BprTriple)
    (ht : i.triple? = some t) :
    Likes matrix t.user t.liked ∧ (∃ u, Likes matrix u t.disliked) ∧
      (verify = true → ¬ Likes matrix t.user t.disliked) := by
  have hm : ∀ x, x % (bprRows verify matrix).flatten.length < nnz matrix := by
    intro x
    rw [bprRows_nnz]
    exact Nat.mod_lt _ h0
  obtain ⟨u, a, b, hs, hs', h | h⟩ := C35_choice verify matrix _ _ (hm task.2.1.1) (hm task.2.1.2)
  · unfold gpuBprProg gpuChoose at hi
    rw [h.1] at hi
    have : i = .skip := by simpa using hi
    subst this; simp [GpuBprInstr.triple?] at ht
  · unfold gpuBprProg gpuChoose at hi
    rw [h.1] at hi
    have : t = ⟨u, a, b⟩ := by
      simp only [List.mem_cons, List.not_mem_nil, or_false] at hi
      rcases hi with rfl | rfl | rfl | rfl | rfl | rfl | rfl <;>
        simp [GpuBprInstr.triple?] at ht <;> exact ht.symm
    subst this
    exact ⟨hs, hs', h.2⟩

/-- **BPR on the GPU**: the same for every launch of the kernel. -/
theorem C35_gpu {B : Type} [DecidableEq B] [Fintype B] {cols : Nat} (verify : Bool)
    (matrix : List (List Nat)) (e : GpuBprEpoch B R cols)
    (he : e.Valid verify (bprRows verify matrix)) (p : (B × Fin cols) × GpuBprInstr R)
    (hp : p ∈ e.schedule) (t : BprTriple) (ht : p.2.triple? = some t) :
    Likes matrix t.user t.liked ∧ (∃ u, Likes matrix u t.disliked) ∧
      (verify = true → ¬ Likes matrix t.user t.disliked) := by
  have hm := mem_streamOf hp
  rw [he.schedule p.1] at hm
  obtain ⟨task, hd, hi⟩ := List.mem_flatMap.mp hm
  have h0 : 0 < nnz matrix := by
    rw [← bprRows_nnz verify, ← he.samples]
    refine lt_of_lt_of_le ?_ (Finset.single_le_sum (fun b _ => Nat.zero_le _)
      (Finset.mem_univ p.1.1))
    rw [List.length_pos_iff]
    intro hnil
    simp [GpuBprEpoch.queue, hnil] at hd
  exact gpuBprProg_triple verify matrix task h0 p.2 hi t ht

/-- Rows not in column order: user 0 likes items 2 and 0, user 1 item 1; drawing the entries "item 0 of
user 0" and "item 2 of user 0" is skipped, and "item 1" is accepted as the negative. -/
example : bprChoose true (bprRows true [[2, 0], [1]]) 0 1 = .ok none ∧
    bprChoose true (bprRows true [[2, 0], [1]]) 0 2 = .ok (some ⟨0, 0, 1⟩) ∧
    bprChoose false (bprRows false [[2, 0], [1]]) 0 1 = .ok (some ⟨0, 2, 0⟩) := by decide +kernel

/-- Without the sorting step the check misses a stored item: the search needs it. -/
example : bprChoose true [[5, 3, 1]] 0 2 = .ok (some ⟨0, 5, 1⟩) ∧
    bprChoose true (bprRows true [[5, 3, 1]]) 0 2 = .ok none := by decide +kernel

/-- A valid epoch of two threads. -/
def exampleEpoch : BprEpoch (Fin 2) where
  draws := fun t => if t = 0 then [(0, 2), (0, 1)] else [(2, 0)]
  schedule :=
    ((bprUpdateProg 1 ⟨0, 0, 1⟩ ++ [BprInstr.skip]).map fun i => (0, i)) ++
      (bprUpdateProg 1 ⟨1, 1, 0⟩).map fun i => (1, i)

deriving instance DecidableEq for BprInstr

example : exampleEpoch.Valid true (bprRows true [[2, 0], [1]]) 1 :=
  ⟨by unfold IsSchedule; decide +kernel, by decide +kernel, by decide +kernel⟩

end Implicit
