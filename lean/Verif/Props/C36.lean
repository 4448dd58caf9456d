import Verif.Props.C35
import Mathlib.Analysis.SpecialFunctions.Exp

/-!
# C36 — BPR keeps cold rows and the bias convention intact

The invariant holds on the CPU for every number of epochs and threads, every draw and every
interleaving of single loads and stores; on the GPU cold rows stay untouched but the user's bias
column does not.
-/

set_option linter.unusedSectionVars false

namespace Implicit

open Spec

variable {R : Type} [LinearOrder R] [Field R] {Th : Type} [DecidableEq Th]

/-- An address no instruction of the schedule changes keeps its value. -/
theorem exec_untouched {I Sc Addr V : Type} {act : Act I Sc Addr V} (w : List (Th × I)) (a : Addr)
    (h : ∀ p ∈ w, ∀ s m, (act p.2 s m).2 a = m a) (σ : Th → Sc) (m : Addr → V) :
    (execInterleaved act w σ m).2 a = m a := by
  induction w generalizing σ m with
  | nil => rfl
  | cons p w ih =>
    unfold execInterleaved
    rw [ih (fun q hq => h q (by simp [hq])), h p (by simp)]

/-- The cells an update for `t` may change. -/
theorem bprUpdateProg_frame (sig : R → R) (lr reg : R) (factors : Nat) (t : BprTriple) (i : BprInstr)
    (hi : i ∈ bprUpdateProg factors t) (c : BprCell)
    (hu : ∀ j, j < factors → c ≠ .user t.user j)
    (hl : ∀ j, j ≤ factors → c ≠ .item t.liked j)
    (hd : ∀ j, j ≤ factors → c ≠ .item t.disliked j) (s : BprScratch R) (m : BprCell → R) :
    (bprAct sig lr reg i s m).2 c = m c := by
  unfold bprUpdateProg bprScoreRound bprUpdateRound at hi
  simp only [List.mem_append, List.mem_flatMap, List.mem_cons, List.not_mem_nil, or_false,
    List.mem_range] at hi
  rcases hi with (((rfl | ⟨j, hj, rfl | rfl | rfl | rfl⟩) | rfl) |
    ⟨j, hj, rfl | rfl | rfl | rfl | rfl | rfl | rfl | rfl | rfl⟩) | rfl | rfl | rfl | rfl <;>
    first
      | rfl
      | exact Function.update_of_ne (hu j hj) _ _
      | exact Function.update_of_ne (hl j (Nat.le_of_lt hj)) _ _
      | exact Function.update_of_ne (hd j (Nat.le_of_lt hj)) _ _
      | exact Function.update_of_ne (hl factors (Nat.le_refl _)) _ _
      | exact Function.update_of_ne (hd factors (Nat.le_refl _)) _ _

/-- The cells training must never change: the bias column of the users, and the rows of users and
items without interactions. -/
def Spec.Protected (matrix : List (List Nat)) (factors : Nat) : BprCell → Prop
  | .user u j => j = factors ∨ ColdUser matrix u
  | .item i _ => ColdItem matrix i

theorem bprEpoch_protected [Fintype Th] (sig : R → R) (lr reg : R) (verify : Bool)
    (matrix : List (List Nat)) (factors : Nat) (e : BprEpoch Th)
    (he : e.Valid verify (bprRows verify matrix) factors) (σ : Th → BprScratch R)
    (m : BprCell → R) (c : BprCell) (hc : Protected matrix factors c) :
    (bprEpoch sig lr reg σ e m).2 c = m c := by
  unfold bprEpoch
  refine exec_untouched _ c (fun p hp s m => ?_) _ m
  have hm := mem_streamOf hp
  rw [he.schedule p.1] at hm
  obtain ⟨d, hd, hi⟩ := List.mem_flatMap.mp hm
  obtain ⟨h1, h2⟩ := he.draws p.1 d hd
  rw [bprRows_nnz] at h1 h2
  obtain ⟨u, a, b, hs, ⟨u', hs'⟩, h | h⟩ := C35_choice verify matrix d.1 d.2 h1 h2
  · unfold bprProg at hi
    rw [h.1] at hi
    have : p.2 = .skip := by simpa using hi
    rw [this]; rfl
  · unfold bprProg at hi
    rw [h.1] at hi
    refine bprUpdateProg_frame sig lr reg factors _ p.2 hi c ?_ ?_ ?_ s m
    · rintro j hj rfl
      rcases hc with rfl | hc
      · exact lt_irrefl _ hj
      · exact hc _ hs
    · rintro j hj rfl
      exact hc _ hs
    · rintro j hj rfl
      exact hc _ hs'

/-- **Training never touches the protected cells**, from whatever factors it starts (also when
refitting). -/
theorem C36_untouched [Fintype Th] (sig : R → R) (lr reg : R) (verify : Bool)
    (matrix : List (List Nat)) (factors : Nat) (epochs : List (BprEpoch Th))
    (he : ∀ e ∈ epochs, e.Valid verify (bprRows verify matrix) factors) (σ : Th → BprScratch R)
    (m : BprCell → R) (c : BprCell) (hc : Protected matrix factors c) :
    bprEpochs sig lr reg σ epochs m c = m c := by
  induction epochs generalizing m with
  | nil => rfl
  | cons e es ih =>
    unfold bprEpochs
    rw [ih (fun e' h' => he e' (by simp [h'])),
      bprEpoch_protected sig lr reg verify matrix factors e (he e (by simp)) σ m c hc]

theorem bprInit_conventions (verify : Bool) (matrix : List (List Nat)) (factors : Nat)
    (randItem randUser : Nat → Nat → R) :
    (∀ u, bprInit factors randItem randUser (bprRows verify matrix) none none (.user u factors) = 1) ∧
    (∀ u j, ColdUser matrix u → j < factors →
      bprInit factors randItem randUser (bprRows verify matrix) none none (.user u j) = 0) ∧
    (∀ i j, ColdItem matrix i →
      bprInit factors randItem randUser (bprRows verify matrix) none none (.item i j) = 0) := by
  refine ⟨fun u => by simp [bprInit, bprUserInit], fun u j hc hj => ?_, fun i j hc => ?_⟩
  · have hrow : ((bprRows verify matrix)[u]?.getD []).length = 0 := by
      rw [List.length_eq_zero_iff, List.eq_nil_iff_forall_not_mem]
      intro x hx
      refine hc x ((bprRows_stored verify matrix u x).mp ?_)
      cases hr : (bprRows verify matrix)[u]? with
      | none => rw [hr] at hx; simp at hx
      | some r => rw [hr] at hx; exact ⟨r, hr, by simpa using hx⟩
    simp only [bprInit, Option.getD_none, bprUserInit, hrow, if_true]
    rw [if_neg (by omega)]
  · have hcount : (bprRows verify matrix).flatten.count i = 0 := by
      rw [List.count_eq_zero, List.mem_flatten]
      rintro ⟨r, hr, hi⟩
      obtain ⟨u, hu, rfl⟩ := List.getElem_of_mem hr
      exact hc u ((bprRows_stored verify matrix u i).mp ⟨_, List.getElem?_eq_getElem hu, hi⟩)
    simp [bprInit, bprItemInit, hcount]

/-- **A fit from scratch on the CPU** ends with every user's last factor equal to 1, and zero factors
(before the bias) for users, and zero factors for items, without interactions. -/
theorem C36_fit [Fintype Th] (sig : R → R) (lr reg : R) (verify : Bool) (matrix : List (List Nat))
    (factors : Nat) (randItem randUser : Nat → Nat → R) (epochs : List (BprEpoch Th))
    (he : ∀ e ∈ epochs, e.Valid verify (bprRows verify matrix) factors) (σ : Th → BprScratch R) :
    let m := bprFit sig lr reg verify factors randItem randUser matrix none none σ epochs
    (∀ u, m (.user u factors) = 1) ∧
    (∀ u j, ColdUser matrix u → j < factors → m (.user u j) = 0) ∧
    (∀ i j, ColdItem matrix i → m (.item i j) = 0) := by
  obtain ⟨h1, h2, h3⟩ := bprInit_conventions verify matrix factors randItem randUser
  refine ⟨fun u => ?_, fun u j hc hj => ?_, fun i j hc => ?_⟩
  · exact (C36_untouched sig lr reg verify matrix factors epochs he σ _ (.user u factors)
      (Or.inl rfl)).trans (h1 u)
  · exact (C36_untouched sig lr reg verify matrix factors epochs he σ _ (.user u j) (Or.inr hc)).trans
      (h2 u j hc hj)
  · exact (C36_untouched sig lr reg verify matrix factors epochs he σ _ (.item i j) hc).trans (h3 i j hc)

/-- **A refit on the CPU** continues from the factors the model has: the last factor of every user, and the factors of
users and items without interactions in the new matrix, are what they were before, whatever they were. -/
theorem C36_refit [Fintype Th] (sig : R → R) (lr reg : R) (verify : Bool) (matrix : List (List Nat))
    (factors : Nat) (randItem randUser item user : Nat → Nat → R) (epochs : List (BprEpoch Th))
    (he : ∀ e ∈ epochs, e.Valid verify (bprRows verify matrix) factors) (σ : Th → BprScratch R) :
    let m := bprFit sig lr reg verify factors randItem randUser matrix (some item) (some user) σ epochs
    (∀ u, m (.user u factors) = user u factors) ∧
    (∀ u j, ColdUser matrix u → m (.user u j) = user u j) ∧
    (∀ i j, ColdItem matrix i → m (.item i j) = item i j) :=
  ⟨fun u => C36_untouched sig lr reg verify matrix factors epochs he σ _ (.user u factors) (Or.inl rfl),
    fun u j hc => C36_untouched sig lr reg verify matrix factors epochs he σ _ (.user u j) (Or.inr hc),
    fun i j hc => C36_untouched sig lr reg verify matrix factors epochs he σ _ (.item i j) hc⟩

/-- Training does move the other cells: in the example epoch of C35 with a zero start (so `z = 1/2`) the
bias of the liked item changes; item 3 and user 2 have no interactions. -/
example :
    let m := bprFit (R := ℚ) (fun _ => 1 / 2) (1 / 10) (1 / 2) true 1 (fun _ _ => 1 / 2) (fun _ _ => 1 / 2)
      [[2, 0], [1], []] none none (fun _ => ⟨0, 0, 0, 0, 0, 0, 0, 0⟩) [exampleEpoch]
    m (.item 0 1) = -1 / 400 ∧ m (.item 1 1) = 1 / 400 ∧ m (.user 0 1) = 1 ∧ m (.user 2 0) = 0 := by
  decide +kernel

/-! ## GPU -/

variable {B : Type} [DecidableEq B] {cols : Nat}

theorem gpuBpr_frame (sig : R → R) (lr reg : R) (verify : Bool) (rows : List (List Nat))
    (task : Nat × (Nat × Nat) × R) (t : BprTriple)
    (hc : gpuChoose verify rows task.2.1.1 task.2.1.2 = .ok (some t)) (i : GpuBprInstr R)
    (hi : i ∈ gpuBprProg verify rows task) (c : BprCell) (hu : ∀ j, c ≠ .user t.user j)
    (hl : ∀ j, c ≠ .item t.liked j) (hd : ∀ j, c ≠ .item t.disliked j) (s : GpuBprScratch R)
    (m : BprCell → R) : (gpuBprAct sig lr reg cols i s m).2 c = m c := by
  unfold gpuBprProg at hi
  rw [hc] at hi
  simp only [List.mem_cons, List.not_mem_nil, or_false] at hi
  rcases hi with rfl | rfl | rfl | rfl | rfl | rfl | rfl
  · rfl
  · rfl
  · rfl
  · rfl
  · exact Function.update_of_ne (hl _) _ _
  · exact Function.update_of_ne (hd _) _ _
  · unfold gpuBprAct
    dsimp only
    by_cases h : task.1 < cols
    · rw [if_pos h]; exact Function.update_of_ne (hu _) _ _
    · rw [if_neg h]

/-- **On the GPU** every row without interactions keeps its factors. -/
theorem C36_gpu_cold_partial [Fintype B] (sig : R → R) (lr reg : R) (verify : Bool)
    (matrix : List (List Nat)) (epochs : List (GpuBprEpoch B R cols))
    (he : ∀ e ∈ epochs, e.Valid verify (bprRows verify matrix))
    (σ : B × Fin cols → GpuBprScratch R) (m : BprCell → R) :
    (∀ u j, ColdUser matrix u → gpuBprEpochs sig lr reg σ epochs m (.user u j) = m (.user u j)) ∧
    (∀ i j, ColdItem matrix i → gpuBprEpochs sig lr reg σ epochs m (.item i j) = m (.item i j)) := by
  have key : ∀ c : BprCell, (∀ u i j, Likes matrix u i → c ≠ .user u j ∧ c ≠ .item i j) →
      gpuBprEpochs sig lr reg σ epochs m c = m c := by
    intro c hc
    induction epochs generalizing m with
    | nil => rfl
    | cons e es ih =>
      unfold gpuBprEpochs
      rw [ih (fun e' h' => he e' (by simp [h']))]
      unfold gpuBprEpoch
      refine exec_untouched _ c (fun p hp s m => ?_) _ m
      have hv := he e (by simp)
      have hm := mem_streamOf hp
      rw [hv.schedule p.1] at hm
      obtain ⟨task, hd, hi⟩ := List.mem_flatMap.mp hm
      have h0 : 0 < nnz matrix := by
        rw [← bprRows_nnz verify, ← hv.samples]
        refine lt_of_lt_of_le ?_ (Finset.single_le_sum (fun b _ => Nat.zero_le _)
          (Finset.mem_univ p.1.1))
        rw [List.length_pos_iff]
        intro hnil
        simp [GpuBprEpoch.queue, hnil] at hd
      have hmod : ∀ x, x % (bprRows verify matrix).flatten.length < nnz matrix := by
        intro x
        rw [bprRows_nnz]
        exact Nat.mod_lt _ h0
      obtain ⟨u, a, b, hs, ⟨u', hs'⟩, h | h⟩ := C35_choice verify matrix _ _
        (hmod task.2.1.1) (hmod task.2.1.2)
      · unfold gpuBprProg gpuChoose at hi
        rw [h.1] at hi
        have : p.2 = .skip := by simpa using hi
        rw [this]; rfl
      · exact gpuBpr_frame sig lr reg verify _ task ⟨u, a, b⟩ h.1 p.2 hi c
          (fun j => (hc u a j hs).1) (fun j => (hc u a j hs).2) (fun j => (hc u' b j hs').2) s m
  refine ⟨fun u j hu => key _ fun u' i j' hs => ⟨?_, by simp⟩,
    fun i j hi => key _ fun u i' j' hs => ⟨by simp, ?_⟩⟩
  · rintro h
    cases h
    exact hu _ hs
  · rintro h
    cases h
    exact hi _ hs

/-- The kernel run used below: user 0 likes item 0, user 1 item 1; one factor and the bias; block 0
trains user 0 on items 0 and 1, block 1 skips. -/
noncomputable def gpuExampleEpoch : GpuBprEpoch (Fin 2) ℝ 2 where
  draws := fun b => if b = 0 then [(0, 1)] else [(0, 0)]
  score := fun _ _ _ => 0
  schedule :=
    [((0, 0), .loadUser ⟨0, 0, 1⟩ 0), ((0, 0), .loadLiked ⟨0, 0, 1⟩ 0),
     ((0, 0), .loadDisliked ⟨0, 0, 1⟩ 0), ((0, 1), .loadUser ⟨0, 0, 1⟩ 1),
     ((0, 1), .loadLiked ⟨0, 0, 1⟩ 1), ((0, 1), .loadDisliked ⟨0, 0, 1⟩ 1),
     ((0, 0), .logistic 0), ((0, 1), .logistic 0),
     ((0, 0), .storeLiked ⟨0, 0, 1⟩ 0), ((0, 1), .storeLiked ⟨0, 0, 1⟩ 1),
     ((0, 0), .storeDisliked ⟨0, 0, 1⟩ 0), ((0, 1), .storeDisliked ⟨0, 0, 1⟩ 1),
     ((0, 0), .storeUser ⟨0, 0, 1⟩ 0), ((0, 1), .storeUser ⟨0, 0, 1⟩ 1),
     ((1, 0), .skip), ((1, 1), .skip)]

/-- **On the GPU the user's bias column is trained too** (the guard at `implicit/gpu/bpr.cu:60`
compares with the number of columns instead of the number of factors): with the default
learning rate and regularisation, a single epoch from an initialisation the code can produce leaves
user 0 with a last factor different from 1.  `dot` returned the exact dot product in this run. -/
theorem C36_gpu_violated :
    let init : BprCell → ℝ := bprInit 1 (fun _ _ => 1 / 2) (fun _ _ => 1 / 2)
      (bprRows true [[0], [1]]) none none
    let m := gpuBprEpochs (fun x => 1 / (1 + Real.exp x)) (1 / 100) (1 / 100)
      (fun _ => ⟨0, 0, 0, 0, 0, 0⟩) [gpuExampleEpoch] init
    gpuExampleEpoch.Valid true (bprRows true [[0], [1]]) ∧
      (∀ b l k, gpuExampleEpoch.score b l k =
        ∑ j : Fin 2, init (.user 0 j) * (init (.item 0 j) - init (.item 1 j))) ∧
      init (.user 0 1) = 1 ∧ m (.user 0 1) ≠ 1 := by
  intro init m
  have hch : gpuChoose true (bprRows true [[0], [1]]) 0 1 = .ok (some ⟨0, 0, 1⟩) := by
    decide +kernel
  have hsk : gpuChoose true (bprRows true [[0], [1]]) 0 0 = .ok none := by decide +kernel
  have hi0 : ∀ i j, init (.item i j) = 0 := by
    intro i j
    simp [init, bprInit, bprItemInit]
  have hu1 : init (.user 0 1) = 1 := by simp [init, bprInit, bprUserInit]
  refine ⟨⟨?_, ?_⟩, ?_, hu1, ?_⟩
  · rintro ⟨b, l⟩
    fin_cases b <;> fin_cases l <;>
      simp [streamOf, gpuExampleEpoch, GpuBprEpoch.queue, gpuBprProg, hch, hsk]
  · decide +kernel
  · intro b l k
    simp [gpuExampleEpoch, hi0]
  · have : m (.user 0 1) = 1 + 1 / 100 * (1 / (1 + Real.exp 0) * (0 - 0) - 1 / 100 * 1) := by
      simp only [m, gpuBprEpochs, gpuBprEpoch, gpuExampleEpoch, execInterleaved, gpuBprAct]
      simp [Function.update, hi0, hu1]
    rw [this, Real.exp_zero]
    norm_num

end Implicit
