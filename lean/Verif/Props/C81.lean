import Verif.Model.SgdMemory
import Verif.Props.C35
import Verif.Props.C38
/-!
# C81 — BPR and LMF train the arrays they are given, whatever their memory layout

`C81_bpr`: on arrays stored row by row (gaps between rows allowed) every interleaving of the threads of `bpr_update` does to
the elements what the model on factor matrices does, leaves all other memory alone and stays inside the arrays.
`C81_bpr_fortran_violated`: on arrays stored column by column it does not.  `C81_lmf`: `lmf_update` does for every layout.
`C81_bpr_columns_violated`, `C81_lmf_columns_violated`: item factors with fewer columns than the user factors.
-/

set_option linter.unusedSectionVars false

namespace Implicit

open Spec (ArrayLayout)

/-- Simulation of an interleaved execution by another one, instruction by instruction. -/
theorem exec_simulates {I I' Sc Sc' A A' V V' Th : Type} [DecidableEq Th] {act : Act I Sc A V} {act' : Act I' Sc' A' V'}
    (g : I' → I) (rel : Sc' → Sc → Prop) (mrel : (A' → V') → (A → V) → Prop) (good : I' → Prop)
    (step : ∀ i, good i → ∀ s' s m' m, rel s' s → mrel m' m →
      rel (act' i s' m').1 (act (g i) s m).1 ∧ mrel (act' i s' m').2 (act (g i) s m).2)
    (w : List (Th × I')) (hw : ∀ p ∈ w, good p.2) :
    ∀ (σ' : Th → Sc') (σ : Th → Sc) (m' : A' → V') (m : A → V), (∀ t, rel (σ' t) (σ t)) → mrel m' m →
      (∀ t, rel ((execInterleaved act' w σ' m').1 t)
        ((execInterleaved act (w.map fun p => (p.1, g p.2)) σ m).1 t)) ∧
      mrel (execInterleaved act' w σ' m').2 (execInterleaved act (w.map fun p => (p.1, g p.2)) σ m).2 := by
  induction w with
  | nil => intro σ' σ m' m hσ hm; exact ⟨hσ, hm⟩
  | cons p w ih =>
    intro σ' σ m' m hσ hm
    obtain ⟨t, i⟩ := p
    obtain ⟨h1, h2⟩ := step i (hw (t, i) (by simp)) _ _ _ _ (hσ t) hm
    refine ih (fun p hp => hw p (List.mem_cons_of_mem _ hp)) _ _ _ _ ?_ h2
    intro t'
    by_cases h : t' = t
    · subst h; simpa using h1
    · simpa [h] using hσ t'

/-! ## Layouts -/

theorem cOrder_proper (rows cols : Nat) : (Spec.cOrder rows cols).Proper := by
  constructor
  · intro u j hu hj
    simp only [ArrayLayout.at, Spec.cOrder, Nat.mul_one] at *
    calc u * cols + j < u * cols + cols := by omega
      _ = (u + 1) * cols := by ring
      _ ≤ rows * cols := Nat.mul_le_mul_right _ hu
  · intro u j u' j' _ hj _ hj' h
    simp only [ArrayLayout.at, Spec.cOrder, Nat.mul_one] at *
    have h1 : (u * cols + j) / cols = u := by
      rw [Nat.add_comm, Nat.add_mul_div_right _ _ (by omega), Nat.div_eq_of_lt hj, Nat.zero_add]
    have h2 : (u' * cols + j') / cols = u' := by
      rw [Nat.add_comm, Nat.add_mul_div_right _ _ (by omega), Nat.div_eq_of_lt hj', Nat.zero_add]
    have : u = u' := by rw [← h1, ← h2, h]
    subst this
    exact ⟨rfl, by omega⟩

theorem fOrder_proper (rows cols : Nat) : (Spec.fOrder rows cols).Proper := by
  have h := cOrder_proper cols rows
  constructor
  · intro u j hu hj
    have := h.inside j u hj hu
    simp only [ArrayLayout.at, Spec.fOrder, Spec.cOrder, Nat.mul_one] at *
    rw [Nat.mul_comm rows cols]; omega
  · intro u j u' j' hu hj hu' hj' e
    have := h.separate j u j' u' hj hu hj' hu' (by
      simp only [ArrayLayout.at, Spec.fOrder, Spec.cOrder, Nat.mul_one] at *
      omega)
    exact ⟨this.2, this.1⟩

variable {R : Type} [LinearOrder R] [Field R]

/-! ## BPR -/

/-- The memory holds the factors in the elements of the two arrays, and everything else is as in `m0`. -/
structure Spec.HoldsFactors (LX LY : ArrayLayout) (m0 m : SgdArray × Nat → R) (fac : BprCell → R) : Prop where
  user : ∀ u j, u < LX.rows → j < LX.cols → m (.X, LX.at u j) = fac (.user u j)
  item : ∀ i j, i < LY.rows → j < LY.cols → m (.Y, LY.at i j) = fac (.item i j)
  otherX : ∀ a, (∀ u j, u < LX.rows → j < LX.cols → LX.at u j ≠ a) → m (.X, a) = m0 (.X, a)
  otherY : ∀ a, (∀ u j, u < LY.rows → j < LY.cols → LY.at u j ≠ a) → m (.Y, a) = m0 (.Y, a)
  otherS : ∀ a, m (.S, a) = m0 (.S, a)

/-- The elements an instruction reads or writes. -/
def BprInstr.touched? : BprInstr → Option BprCell
  | .loadUser t j | .storeUser t j => some (.user t.user j)
  | .loadLiked t j | .storeLiked t j | .storeLikedBias t j => some (.item t.liked j)
  | .loadDisliked t j | .storeDisliked t j | .storeDislikedBias t j => some (.item t.disliked j)
  | .skip | .zero | .score | .logistic | .keep => none

/-- The element exists. -/
def bprExists (LX LY : ArrayLayout) : BprCell → Prop
  | .user u j => u < LX.rows ∧ j < LX.cols
  | .item i j => i < LY.rows ∧ j < LY.cols

theorem rowPointer_eq {L : ArrayLayout} (h : L.colStride = 1) (u j : Nat) : rowPointer L u j = L.at u j := by
  simp [rowPointer, ArrayLayout.at, h]

theorem holds_user {LX LY : ArrayLayout} (hX : LX.Proper) {m0 m : SgdArray × Nat → R} {fac : BprCell → R}
    (h : Spec.HoldsFactors LX LY m0 m fac) {u j : Nat} (hu : u < LX.rows) (hj : j < LX.cols) (v : R) :
    Spec.HoldsFactors LX LY m0 (Function.update m (.X, LX.at u j) v) (Function.update fac (.user u j) v) := by
  refine ⟨?_, ?_, ?_, ?_, ?_⟩
  · intro u' j' hu' hj'
    by_cases e : LX.at u' j' = LX.at u j
    · obtain ⟨rfl, rfl⟩ := hX.separate _ _ _ _ hu' hj' hu hj e
      simp
    · have : ¬ (BprCell.user u' j' = BprCell.user u j) := by
        intro h; cases h; exact e rfl
      rw [Function.update_of_ne (by simpa using e), Function.update_of_ne this]
      exact h.user _ _ hu' hj'
  · intro i j' hi hj'
    rw [Function.update_of_ne (by simp), Function.update_of_ne (by simp)]
    exact h.item _ _ hi hj'
  · intro a ha
    rw [Function.update_of_ne (by simpa using fun e => ha u j hu hj e.symm)]
    exact h.otherX a ha
  · intro a ha
    rw [Function.update_of_ne (by simp)]
    exact h.otherY a ha
  · intro a
    rw [Function.update_of_ne (by simp)]
    exact h.otherS a

theorem holds_item {LX LY : ArrayLayout} (hY : LY.Proper) {m0 m : SgdArray × Nat → R} {fac : BprCell → R}
    (h : Spec.HoldsFactors LX LY m0 m fac) {u j : Nat} (hu : u < LY.rows) (hj : j < LY.cols) (v : R) :
    Spec.HoldsFactors LX LY m0 (Function.update m (.Y, LY.at u j) v) (Function.update fac (.item u j) v) := by
  refine ⟨?_, ?_, ?_, ?_, ?_⟩
  · intro i j' hi hj'
    rw [Function.update_of_ne (by simp), Function.update_of_ne (by simp)]
    exact h.user _ _ hi hj'
  · intro u' j' hu' hj'
    by_cases e : LY.at u' j' = LY.at u j
    · obtain ⟨rfl, rfl⟩ := hY.separate _ _ _ _ hu' hj' hu hj e
      simp
    · have : ¬ (BprCell.item u' j' = BprCell.item u j) := by
        intro h; cases h; exact e rfl
      rw [Function.update_of_ne (by simpa using e), Function.update_of_ne this]
      exact h.item _ _ hu' hj'
  · intro a ha
    rw [Function.update_of_ne (by simp)]
    exact h.otherX a ha
  · intro a ha
    rw [Function.update_of_ne (by simpa using fun e => ha u j hu hj e.symm)]
    exact h.otherY a ha
  · intro a
    rw [Function.update_of_ne (by simp)]
    exact h.otherS a

theorem bprStep_mem (sig : R → R) (lr reg : R) {LX LY : ArrayLayout} (hX : LX.Proper) (hY : LY.Proper)
    (cX : LX.colStride = 1) (cY : LY.colStride = 1) (m0 : SgdArray × Nat → R) (i : BprInstr)
    (hi : ∀ c, i.touched? = some c → bprExists LX LY c) (s' : Watched (BprScratch R)) (s : BprScratch R)
    (m : SgdArray × Nat → R) (fac : BprCell → R) (hs : s'.regs = s ∧ s'.bad = false)
    (hm : Spec.HoldsFactors LX LY m0 m fac) :
    ((bprActMem sig lr reg LX LY i s' m).1.regs = (bprAct sig lr reg i s fac).1 ∧
      (bprActMem sig lr reg LX LY i s' m).1.bad = false) ∧
    Spec.HoldsFactors LX LY m0 (bprActMem sig lr reg LX LY i s' m).2 (bprAct sig lr reg i s fac).2 := by
  obtain ⟨rfl, hb⟩ := hs
  cases i with
  | skip => exact ⟨⟨rfl, hb⟩, hm⟩
  | zero => exact ⟨⟨rfl, hb⟩, hm⟩
  | score => exact ⟨⟨rfl, hb⟩, hm⟩
  | logistic => exact ⟨⟨rfl, hb⟩, hm⟩
  | keep => exact ⟨⟨rfl, hb⟩, hm⟩
  | loadUser t j =>
    obtain ⟨h1, h2⟩ := hi _ rfl
    simp only [bprActMem, ptrLoad, bprAct, rowPointer_eq cX, hm.user _ _ h1 h2, hb]
    exact ⟨⟨trivial, by simpa using hX.inside _ _ h1 h2⟩, hm⟩
  | loadLiked t j =>
    obtain ⟨h1, h2⟩ := hi _ rfl
    simp only [bprActMem, ptrLoad, bprAct, rowPointer_eq cY, hm.item _ _ h1 h2, hb]
    exact ⟨⟨trivial, by simpa using hY.inside _ _ h1 h2⟩, hm⟩
  | loadDisliked t j =>
    obtain ⟨h1, h2⟩ := hi _ rfl
    simp only [bprActMem, ptrLoad, bprAct, rowPointer_eq cY, hm.item _ _ h1 h2, hb]
    exact ⟨⟨trivial, by simpa using hY.inside _ _ h1 h2⟩, hm⟩
  | storeUser t j =>
    obtain ⟨h1, h2⟩ := hi _ rfl
    simp only [bprActMem, ptrStore, bprAct, rowPointer_eq cX, hb]
    exact ⟨⟨trivial, by simpa using hX.inside _ _ h1 h2⟩, holds_user hX hm h1 h2 _⟩
  | storeLiked t j =>
    obtain ⟨h1, h2⟩ := hi _ rfl
    simp only [bprActMem, ptrStore, bprAct, rowPointer_eq cY, hb]
    exact ⟨⟨trivial, by simpa using hY.inside _ _ h1 h2⟩, holds_item hY hm h1 h2 _⟩
  | storeDisliked t j =>
    obtain ⟨h1, h2⟩ := hi _ rfl
    simp only [bprActMem, ptrStore, bprAct, rowPointer_eq cY, hb]
    exact ⟨⟨trivial, by simpa using hY.inside _ _ h1 h2⟩, holds_item hY hm h1 h2 _⟩
  | storeLikedBias t j =>
    obtain ⟨h1, h2⟩ := hi _ rfl
    simp only [bprActMem, ptrStore, bprAct, rowPointer_eq cY, hb]
    exact ⟨⟨trivial, by simpa using hY.inside _ _ h1 h2⟩, holds_item hY hm h1 h2 _⟩
  | storeDislikedBias t j =>
    obtain ⟨h1, h2⟩ := hi _ rfl
    simp only [bprActMem, ptrStore, bprAct, rowPointer_eq cY, hb]
    exact ⟨⟨trivial, by simpa using hY.inside _ _ h1 h2⟩, holds_item hY hm h1 h2 _⟩

theorem bprUpdateProg_touched (factors : Nat) (t : BprTriple) (i : BprInstr) (hi : i ∈ bprUpdateProg factors t) (c : BprCell)
    (hc : i.touched? = some c) :
    ∃ j ≤ factors, c = .user t.user j ∨ c = .item t.liked j ∨ c = .item t.disliked j := by
  unfold bprUpdateProg bprScoreRound bprUpdateRound at hi
  simp only [List.mem_append, List.mem_flatMap, List.mem_cons, List.not_mem_nil, or_false, List.mem_range] at hi
  rcases hi with (((rfl | ⟨j, hj, rfl | rfl | rfl | rfl⟩) | rfl) |
    ⟨j, hj, rfl | rfl | rfl | rfl | rfl | rfl | rfl | rfl | rfl⟩) | rfl | rfl | rfl | rfl <;>
    simp only [BprInstr.touched?, Option.some.injEq, reduceCtorEq] at hc <;> subst hc <;>
    first
    | exact ⟨j, by omega, by simp⟩
    | exact ⟨factors, le_refl _, by simp⟩

/-- **BPR in memory.**  `matrix` are the liked items of every user, `LX` and `LY` the layouts of the factors, stored row by
row.  For every number of threads, every assignment of samples and draws to them and every interleaving of their
instructions: the elements of the arrays, and the counters, are those of `bprEpoch`, no other memory changes, and no thread
leaves the memory of an array. -/
theorem C81_bpr {Th : Type} [DecidableEq Th] [Fintype Th] (sig : R → R) (lr reg : R) (verify : Bool)
    (matrix : List (List Nat)) (factors : Nat) {LX LY : ArrayLayout} (hX : LX.Proper) (hY : LY.Proper)
    (cX : LX.colStride = 1) (cY : LY.colStride = 1) (fX : LX.cols = factors + 1) (fY : LY.cols = factors + 1)
    (rX : LX.rows = matrix.length) (rY : ∀ row ∈ matrix, ∀ i ∈ row, i < LY.rows)
    (e : BprEpoch Th) (he : e.Valid verify (bprRows verify matrix) factors) (σ : Th → BprScratch R)
    (m : SgdArray × Nat → R) (fac : BprCell → R)
    (hu : ∀ u j, u < LX.rows → j < LX.cols → m (.X, LX.at u j) = fac (.user u j))
    (hi : ∀ i j, i < LY.rows → j < LY.cols → m (.Y, LY.at i j) = fac (.item i j)) :
    let r := bprEpochMem sig lr reg LX LY σ e m
    Spec.HoldsFactors LX LY m r.2 (bprEpoch sig lr reg σ e fac).2 ∧
    (∀ t, (r.1 t).regs = (bprEpoch sig lr reg σ e fac).1 t) ∧ ∀ t, (r.1 t).bad = false := by
  have hgood : ∀ p ∈ e.schedule, ∀ c, p.2.touched? = some c → bprExists LX LY c := by
    intro p hp c hc
    have hm := mem_streamOf hp
    rw [he.schedule p.1] at hm
    obtain ⟨d, hd, hi⟩ := List.mem_flatMap.mp hm
    obtain ⟨h1, h2⟩ := he.draws p.1 d hd
    rw [bprRows_nnz] at h1 h2
    obtain ⟨u, a, b, hs, hs', h | h⟩ := C35_choice verify matrix d.1 d.2 h1 h2
    · unfold bprProg at hi
      rw [h.1] at hi
      have : p.2 = .skip := by simpa using hi
      rw [this] at hc; simp [BprInstr.touched?] at hc
    · unfold bprProg at hi
      rw [h.1] at hi
      obtain ⟨j, hj, hcc⟩ := bprUpdateProg_touched factors _ _ hi c hc
      obtain ⟨row, hrow, ha⟩ := hs
      obtain ⟨u', row', hrow', hb⟩ := hs'
      have hul := (List.getElem?_eq_some_iff.mp hrow).1
      rcases hcc with rfl | rfl | rfl
      · exact ⟨by show u < LX.rows; omega, by omega⟩
      · exact ⟨rY _ (List.mem_of_getElem? hrow) _ ha, by omega⟩
      · exact ⟨rY _ (List.mem_of_getElem? hrow') _ hb, by omega⟩
  have := exec_simulates (act := bprAct sig lr reg) (act' := bprActMem sig lr reg LX LY) id
    (fun s' s => s'.regs = s ∧ s'.bad = false) (Spec.HoldsFactors LX LY m)
    (fun i => ∀ c, i.touched? = some c → bprExists LX LY c)
    (fun i hi s' s m' fac hs hm => bprStep_mem sig lr reg hX hY cX cY m i hi s' s m' fac hs hm)
    e.schedule hgood (fun t => ⟨(σ t).fresh, false⟩) (fun t => (σ t).fresh) m fac (fun t => ⟨rfl, rfl⟩)
    ⟨hu, hi, fun _ _ => rfl, fun _ _ => rfl, fun _ => rfl⟩
  simp only [id_eq, List.map_id', Prod.mk.eta] at this
  exact ⟨this.2, fun t => (this.1 t).1, fun t => (this.1 t).2⟩

/-- One thread that draws one sample and two pairs that are skipped; three users and items, one factor. -/
def bprEpochTest : BprEpoch Unit where
  draws := fun _ => [(0, 1), (0, 0), (0, 0)]
  schedule := ([(0, 1), (0, 0), (0, 0)].flatMap (bprProg true (bprRows true [[0], [1], [2]]) 1)).map fun i => ((), i)

theorem bprEpochTest_valid : bprEpochTest.Valid true (bprRows true [[0], [1], [2]]) 1 := by
  refine ⟨fun t => ?_, fun t d hd => ?_, by decide +kernel⟩
  · simp [bprEpochTest, streamOf, Function.comp_def]
  · have : (bprRows true [[0], [1], [2]]).flatten.length = 3 := by decide +kernel
    rw [this]
    simp only [bprEpochTest, List.mem_cons, List.not_mem_nil, or_false] at hd
    rcases hd with rfl | rfl | rfl <;> decide

/-- The elements of the arrays as factors. -/
def facOf (LX LY : ArrayLayout) (m : SgdArray × Nat → R) : BprCell → R
  | .user u j => m (.X, LX.at u j)
  | .item i j => m (.Y, LY.at i j)

/-- Row by row: the sample changes user 0 and items 0 and 1, and nothing else. -/
example :
    let L := Spec.cOrder 3 2
    let m : SgdArray × Nat → Rat := fun a => a.2
    let r := bprEpochMem (fun x => x) 1 0 L L (fun _ => ⟨0, 0, 0, 0, 0, 0, 0, 0⟩) bprEpochTest m
    (List.range 6).map (fun a => r.2 (.Y, a)) = [0, -1, 2, 5, 4, 5] ∧
    (List.range 6).map (fun a => r.2 (.X, a)) = [4, 1, 2, 3, 4, 5] ∧ (r.1 ()).bad = false := by
  decide +kernel

/-- Item factors stored column by column: item 2, which is not part of the sample, changes, and item 1 is not
what it should be. -/
theorem C81_bpr_fortran_violated :
    let LX := Spec.cOrder 3 2
    let LY := Spec.fOrder 3 2
    let m : SgdArray × Nat → Rat := fun a => a.2
    let r := bprEpochMem (fun _ => 1 / 2) 1 0 LX LY (fun _ => ⟨0, 0, 0, 0, 0, 0, 0, 0⟩) bprEpochTest m
    let fac := (bprEpoch (fun _ => 1 / 2) 1 0 (fun _ => ⟨0, 0, 0, 0, 0, 0, 0, 0⟩) bprEpochTest (facOf LX LY m)).2
    LX.Proper ∧ LY.Proper ∧ bprEpochTest.Valid true (bprRows true [[0], [1], [2]]) 1 ∧
    fac (.item 2 0) = m (.Y, LY.at 2 0) ∧ r.2 (.Y, LY.at 2 0) ≠ m (.Y, LY.at 2 0) ∧
    r.2 (.Y, LY.at 1 1) ≠ fac (.item 1 1) := by
  refine ⟨cOrder_proper _ _, fOrder_proper _ _, bprEpochTest_valid, ?_, ?_, ?_⟩ <;> decide +kernel

/-- User factors stored column by column: the score of user 0 is computed with a factor of user 1. -/
theorem C81_bpr_fortran_users_violated :
    let LX := Spec.fOrder 3 2
    let LY := Spec.cOrder 3 2
    let m : SgdArray × Nat → Rat := fun a => a.2
    let r := bprEpochMem (fun x => x) 1 0 LX LY (fun _ => ⟨0, 0, 0, 0, 0, 0, 0, 0⟩) bprEpochTest m
    let fac := (bprEpoch (fun x => x) 1 0 (fun _ => ⟨0, 0, 0, 0, 0, 0, 0, 0⟩) bprEpochTest (facOf LX LY m)).2
    LX.Proper ∧ LY.Proper ∧ bprEpochTest.Valid true (bprRows true [[0], [1], [2]]) 1 ∧
    r.2 (.X, LX.at 0 0) ≠ fac (.user 0 0) ∧
    (bprEpochMem (fun x => x) 1 0 LX LY (fun _ => ⟨0, 0, 0, 0, 0, 0, 0, 0⟩) bprEpochTest
      (Function.update m (.X, LX.at 1 0) 7)).2 (.X, LX.at 0 0) ≠ r.2 (.X, LX.at 0 0) := by
  refine ⟨fOrder_proper _ _, cOrder_proper _ _, bprEpochTest_valid, ?_, ?_⟩ <;> decide +kernel

/-- Item factors with fewer columns than user factors (set from a model with fewer factors): the thread reads and writes
outside the item factors. -/
theorem C81_bpr_columns_violated :
    let LX := Spec.cOrder 3 2
    let LY := Spec.cOrder 2 1
    let m : SgdArray × Nat → Rat := fun a => a.2
    let r := bprEpochMem (fun x => x) 1 0 LX LY (fun _ => ⟨0, 0, 0, 0, 0, 0, 0, 0⟩) bprEpochTest m
    LX.Proper ∧ LY.Proper ∧ (r.1 ()).bad = true ∧ r.2 (.Y, LY.size) ≠ m (.Y, LY.size) := by
  refine ⟨cOrder_proper _ _, cOrder_proper _ _, ?_, ?_⟩ <;> decide +kernel

/-! ## LMF -/

variable {n : Nat}

/-- The instruction on factor matrices. -/
def lmfAbs (Y : List (Vec n R)) : LmfMemInstr n R → LmfInstr n R
  | .init => .init
  | .pos i c => .pos (Y[i]?.getD 0, c)
  | .posSig u i c => .posSig u (Y[i]?.getD 0, c)
  | .neg u i => .neg u (Y[i]?.getD 0)
  | .accumulate u j => .accumulate u j
  | .store u j => .store u j

/-- The rows an instruction names exist. -/
def lmfExists (users sums items : Nat) : LmfMemInstr n R → Prop
  | .init => True
  | .pos i _ => i < items
  | .posSig u i _ => u < users ∧ i < items
  | .neg u i => u < users ∧ i < items
  | .accumulate u _ => u < users ∧ u < sums
  | .store u _ => u < users ∧ u < sums

/-- The memory holds factors, sums and item factors; what is not an element of the first two arrays is as in `m0`. -/
structure Spec.HoldsLmf (LX LY LS : ArrayLayout) (Y : List (Vec n R)) (m0 m : SgdArray × Nat → R)
    (fac : LmfCell n → R) : Prop where
  factor : ∀ u (j : Fin n), u < LX.rows → m (.X, LX.at u j) = fac (.factor u j)
  sum : ∀ u (j : Fin n), u < LS.rows → m (.S, LS.at u j) = fac (.sum u j)
  item : ∀ i y, Y[i]? = some y → ∀ j : Fin n, m (.Y, LY.at i j) = y j
  otherX : ∀ a, (∀ u j, u < LX.rows → j < LX.cols → LX.at u j ≠ a) → m (.X, a) = m0 (.X, a)
  otherS : ∀ a, (∀ u j, u < LS.rows → j < LS.cols → LS.at u j ≠ a) → m (.S, a) = m0 (.S, a)
  otherY : ∀ a, m (.Y, a) = m0 (.Y, a)

theorem rowOutside_false {L : ArrayLayout} (hL : L.Proper) (hc : L.cols = n) {u : Nat} (hu : u < L.rows) :
    rowOutside n L u = false := by
  unfold rowOutside
  rw [List.any_eq_false]
  intro j hj
  have := hL.inside u j hu (by rw [hc]; simpa using hj)
  simpa [ArrayLayout.at] using this

theorem lmfStep_mem (sigm sqrt : R → R) (eps lr reg : R) {LX LY LS : ArrayLayout} (hX : LX.Proper) (hY : LY.Proper)
    (hS : LS.Proper) (cX : LX.cols = n) (cY : LY.cols = n) (cS : LS.cols = n) (Y : List (Vec n R))
    (rY : LY.rows = Y.length) (m0 : SgdArray × Nat → R) (i : LmfMemInstr n R)
    (hi : lmfExists LX.rows LS.rows Y.length i) (s' : Watched (Vec n R)) (s : Vec n R)
    (m : SgdArray × Nat → R) (fac : LmfCell n → R) (hs : s'.regs = s ∧ s'.bad = false)
    (hm : Spec.HoldsLmf LX LY LS Y m0 m fac) :
    ((lmfActMem sigm sqrt eps lr reg LX LY LS i s' m).1.regs = (lmfAct sigm sqrt eps lr reg (lmfAbs Y i) s fac).1 ∧
      (lmfActMem sigm sqrt eps lr reg LX LY LS i s' m).1.bad = false) ∧
    Spec.HoldsLmf LX LY LS Y m0 (lmfActMem sigm sqrt eps lr reg LX LY LS i s' m).2
      (lmfAct sigm sqrt eps lr reg (lmfAbs Y i) s fac).2 := by
  obtain ⟨rfl, hb⟩ := hs
  have hrowY : ∀ i, i < Y.length → (sgdRow .Y LY m i : Vec n R) = Y[i]?.getD 0 := by
    intro i hi
    funext j
    have := hm.item i _ (List.getElem?_eq_getElem hi) j
    simp only [sgdRow, List.getElem?_eq_getElem hi, Option.getD_some]
    exact this
  have hrowX : ∀ u, u < LX.rows → (sgdRow .X LX m u : Vec n R) = fun j => fac (.factor u j) := by
    intro u hu
    funext j
    exact hm.factor u j hu
  cases i with
  | init => exact ⟨⟨rfl, hb⟩, hm⟩
  | pos i c =>
    have hi : i < Y.length := hi
    simp only [lmfActMem, lmfAbs, lmfAct, hrowY i hi, hb, rowOutside_false hY cY (rY ▸ hi)]
    exact ⟨⟨rfl, rfl⟩, hm⟩
  | posSig u i c =>
    obtain ⟨hu, hi⟩ := hi
    simp only [lmfActMem, lmfAbs, lmfAct, hrowY i hi, hrowX u hu, hb, rowOutside_false hY cY (rY ▸ hi),
      rowOutside_false hX cX hu]
    exact ⟨⟨rfl, rfl⟩, hm⟩
  | neg u i =>
    obtain ⟨hu, hi⟩ := hi
    simp only [lmfActMem, lmfAbs, lmfAct, hrowY i hi, hrowX u hu, hb, rowOutside_false hY cY (rY ▸ hi),
      rowOutside_false hX cX hu]
    exact ⟨⟨rfl, rfl⟩, hm⟩
  | accumulate u j =>
    obtain ⟨hu, hu'⟩ := hi
    have e1 : m (.X, LX.at u j) = _ := hm.factor u j hu
    have e2 : m (.S, LS.at u j) = _ := hm.sum u j hu'
    have b1 := hX.inside u j hu (by rw [cX]; exact j.2)
    have b2 := hS.inside u j hu' (by rw [cS]; exact j.2)
    simp only [ArrayLayout.at] at e1 e2 b1 b2
    simp only [lmfActMem, lmfAbs, lmfAct, e1, e2, hb]
    refine ⟨⟨trivial, by simpa using ⟨b1, b2⟩⟩, ⟨?_, ?_, ?_, ?_, ?_, ?_⟩⟩
    · intro u' j' h'
      rw [Function.update_of_ne (by simp), Function.update_of_ne (by simp)]
      exact hm.factor _ _ h'
    · intro u' j' h'
      by_cases e : LS.at u' j' = LS.at u j
      · obtain ⟨rfl, hj⟩ := hS.separate _ _ _ _ h' (by rw [cS]; exact j'.2) hu' (by rw [cS]; exact j.2) e
        obtain rfl : j' = j := Fin.ext hj
        show Function.update _ (SgdArray.S, LS.at u' j') _ _ = _
        simp
      · have : ¬ (LmfCell.sum u' j' = LmfCell.sum u j) := by
          intro h; cases h; exact e rfl
        rw [Function.update_of_ne (by simpa [ArrayLayout.at] using e), Function.update_of_ne this]
        exact hm.sum _ _ h'
    · intro i y hy j'
      rw [Function.update_of_ne (by simp)]
      exact hm.item _ _ hy j'
    · intro a ha
      rw [Function.update_of_ne (by simp)]
      exact hm.otherX a ha
    · intro a ha
      rw [Function.update_of_ne (by
        simpa using fun e => ha u j hu' (by rw [cS]; exact j.2) e.symm)]
      exact hm.otherS a ha
    · intro a
      rw [Function.update_of_ne (by simp)]
      exact hm.otherY a
  | store u j =>
    obtain ⟨hu, hu'⟩ := hi
    have e1 : m (.X, LX.at u j) = _ := hm.factor u j hu
    have e2 : m (.S, LS.at u j) = _ := hm.sum u j hu'
    have b1 := hX.inside u j hu (by rw [cX]; exact j.2)
    have b2 := hS.inside u j hu' (by rw [cS]; exact j.2)
    simp only [ArrayLayout.at] at e1 e2 b1 b2
    simp only [lmfActMem, lmfAbs, lmfAct, e1, e2, hb]
    refine ⟨⟨trivial, by simpa using ⟨b1, b2⟩⟩, ⟨?_, ?_, ?_, ?_, ?_, ?_⟩⟩
    · intro u' j' h'
      by_cases e : LX.at u' j' = LX.at u j
      · obtain ⟨rfl, hj⟩ := hX.separate _ _ _ _ h' (by rw [cX]; exact j'.2) hu (by rw [cX]; exact j.2) e
        obtain rfl : j' = j := Fin.ext hj
        show Function.update _ (SgdArray.X, LX.at u' j') _ _ = _
        simp
      · have : ¬ (LmfCell.factor u' j' = LmfCell.factor u j) := by
          intro h; cases h; exact e rfl
        rw [Function.update_of_ne (by simpa [ArrayLayout.at] using e), Function.update_of_ne this]
        exact hm.factor _ _ h'
    · intro u' j' h'
      rw [Function.update_of_ne (by simp), Function.update_of_ne (by simp)]
      exact hm.sum _ _ h'
    · intro i y hy j'
      rw [Function.update_of_ne (by simp)]
      exact hm.item _ _ hy j'
    · intro a ha
      rw [Function.update_of_ne (by
        simpa using fun e => ha u j hu (by rw [cX]; exact j.2) e.symm)]
      exact hm.otherX a ha
    · intro a ha
      rw [Function.update_of_ne (by simp)]
      exact hm.otherS a ha
    · intro a
      rw [Function.update_of_ne (by simp)]
      exact hm.otherY a

theorem lmfNegRows_ok_iff {indices : List Nat} {Y : List (Vec n R)} {draws : List Nat} {neg : List (Vec n R)}
    (h : lmfNegRows indices Y draws = .ok neg) :
    (∀ d ∈ draws, indices.getD d 0 < Y.length) ∧ neg = draws.map fun d => Y[indices.getD d 0]?.getD 0 := by
  induction draws generalizing neg with
  | nil => cases h; simp
  | cons d ds ih =>
    unfold lmfNegRows at h
    rw [List.mapM_cons] at h
    cases hi : indices[d]? with
    | none => rw [hi] at h; cases h
    | some i =>
      cases hy : Y[i]? with
      | none => rw [hi] at h; simp only [hy] at h; cases h
      | some y =>
        rw [hi] at h
        simp only [hy] at h
        cases hr : lmfNegRows indices Y ds with
        | error e =>
          unfold lmfNegRows at hr
          rw [hr] at h; cases h
        | ok neg' =>
          obtain ⟨h1, h2⟩ := ih hr
          unfold lmfNegRows at hr
          rw [hr] at h
          cases h
          have hg : indices.getD d 0 = i := by simp [hi]
          refine ⟨?_, ?_⟩
          · intro d' hd'
            rcases List.mem_cons.mp hd' with rfl | hd'
            · rw [hg]; exact (List.getElem?_eq_some_iff.mp hy).1
            · exact h1 d' hd'
          · simp only [List.map_cons, hg, hy, Option.getD_some, h2]

theorem streamOf_map_snd {I I' Th : Type} [DecidableEq Th] (g : I' → I) (w : List (Th × I')) (t : Th) :
    streamOf t (w.map fun p => (p.1, g p.2)) = (streamOf t w).map g := by
  induction w with
  | nil => rfl
  | cons p w ih =>
    rw [List.map_cons, streamOf_cons, streamOf_cons, ih]
    split <;> simp

/-- **LMF in memory.**  For arrays of any layout (row by row, column by column, slices), every number of threads, every
assignment of the rows to them and every interleaving: the elements of `user_vectors` and `deriv_sum_sq` are those of
`lmfUpdate`, no other memory changes, and no thread leaves the memory of an array. -/
theorem C81_lmf {Th : Type} [DecidableEq Th] (sigm sqrt : R → R) (eps lr reg : R) (negProp : Int) (C : SpRows R)
    (Y : List (Vec n R)) (draws : Nat → Nat → Nat) (side side' : LmfSide n R)
    (h : lmfUpdate sigm sqrt eps lr reg negProp C Y draws side = .ok side')
    {LX LY LS : ArrayLayout} (hX : LX.Proper) (hY : LY.Proper) (hS : LS.Proper)
    (cX : LX.cols = n) (cY : LY.cols = n) (cS : LS.cols = n)
    (rX : LX.rows = side.factors.length) (rY : LY.rows = Y.length) (rS : LS.rows = side.sums.length)
    (queue : Th → List Nat) (hq : Assignment side.factors.length queue)
    (w : List (Th × LmfMemInstr n R)) (hw : IsSchedule (lmfMemTask n negProp C draws) queue w)
    (σ : Th → Vec n R) (m : SgdArray × Nat → R)
    (mX : ∀ u x, side.factors[u]? = some x → ∀ j : Fin n, m (.X, LX.at u j) = x j)
    (mS : ∀ u s, side.sums[u]? = some s → ∀ j : Fin n, m (.S, LS.at u j) = s j)
    (mY : ∀ i y, Y[i]? = some y → ∀ j : Fin n, m (.Y, LY.at i j) = y j) :
    let r := execInterleaved (lmfActMem sigm sqrt eps lr reg LX LY LS) w (fun t => ⟨σ t, false⟩) m
    (∀ u x, side'.factors[u]? = some x → ∀ j : Fin n, r.2 (.X, LX.at u j) = x j) ∧
    (∀ u s, side'.sums[u]? = some s → ∀ j : Fin n, r.2 (.S, LS.at u j) = s j) ∧
    (∀ a, (∀ u j, u < LX.rows → j < n → LX.at u j ≠ a) → r.2 (.X, a) = m (.X, a)) ∧
    (∀ a, (∀ u j, u < LS.rows → j < n → LS.at u j ≠ a) → r.2 (.S, a) = m (.S, a)) ∧
    (∀ a, r.2 (.Y, a) = m (.Y, a)) ∧ ∀ t, (r.1 t).bad = false := by
  intro r
  obtain ⟨hl, hrow⟩ := lmfUpdate_ok h
  -- the data of every row
  have hdata : ∀ u, u < side.factors.length → u < LS.rows ∧ ∃ row, C[u]? = some row ∧
      (∀ e ∈ row, e.1 < Y.length) ∧
      (∀ d ∈ lmfRowDraws n negProp row.length (draws u), (lmfIndices C).getD d 0 < Y.length) ∧
      lmfTaskData negProp C Y draws u = (row.map fun e => (Y[e.1]?.getD 0, e.2),
        (lmfRowDraws n negProp row.length (draws u)).map fun d => Y[(lmfIndices C).getD d 0]?.getD 0) := by
    intro u hu
    obtain ⟨p, hp, -, -⟩ := hrow u _ (List.getElem?_eq_getElem hu)
    unfold lmfRowAt at hp
    cases hC : C[u]? with
    | none => rw [hC] at hp; cases hp
    | some row =>
      cases hss : side.sums[u]? with
      | none => rw [hC, hss] at hp; cases hp
      | some s =>
        rw [hC, hss] at hp
        simp only [bind, Except.bind] at hp
        cases hpos : rowEntries .undefinedBehaviour Y row with
        | error e => rw [hpos] at hp; cases hp
        | ok pos =>
          rw [hpos] at hp
          simp only at hp
          cases hneg : lmfNegRows (lmfIndices C) Y (lmfRowDraws n negProp row.length (draws u)) with
          | error e => rw [hneg] at hp; cases hp
          | ok neg =>
            obtain ⟨h1, h2⟩ := rowEntries_ok_iff hpos
            obtain ⟨h3, h4⟩ := lmfNegRows_ok_iff hneg
            refine ⟨by rw [rS]; exact (List.getElem?_eq_some_iff.mp hss).1, row, rfl, h1, h3, ?_⟩
            unfold lmfTaskData
            rw [hC]
            simp only [hpos, hneg, h2, h4]
  have hprog : ∀ u, u < side.factors.length → (lmfMemTask n negProp C draws u).map (lmfAbs Y) =
      lmfProg (lmfTaskData negProp C Y draws u).1 (lmfTaskData negProp C Y draws u).2 u := by
    intro u hu
    obtain ⟨-, row, hC, -, -, hd⟩ := hdata u hu
    rw [hd]
    unfold lmfMemTask
    rw [hC]
    simp only [lmfMemProg, lmfProg]
    by_cases he : row.isEmpty
    · simp [he]
    · simp only [he, List.isEmpty_map]
      simp [lmfAbs, Function.comp_def, List.map_flatMap]
  have hgood : ∀ u, u < side.factors.length → ∀ i ∈ lmfMemTask n negProp C draws u,
      lmfExists LX.rows LS.rows Y.length i := by
    intro u hu i hi
    obtain ⟨hs, row, hC, h1, h2, -⟩ := hdata u hu
    unfold lmfMemTask at hi
    rw [hC] at hi
    simp only [lmfMemProg] at hi
    split at hi
    · simp at hi
    · simp only [List.mem_append, List.mem_map, List.mem_flatMap, List.mem_cons, List.not_mem_nil, or_false] at hi
      rcases hi with (((rfl | ⟨e, he, rfl⟩) | ⟨e, he, rfl⟩) | ⟨i, ⟨d, hd, rfl⟩, rfl⟩) | ⟨j, -, rfl | rfl⟩
      · trivial
      · exact h1 e he
      · exact ⟨rX ▸ hu, h1 e he⟩
      · exact ⟨rX ▸ hu, h2 d hd⟩
      · exact ⟨rX ▸ hu, hs⟩
      · exact ⟨rX ▸ hu, hs⟩
  have hqlt : ∀ t, ∀ u ∈ queue t, u < side.factors.length := fun t u hu => (hq.covers u).mpr ⟨t, hu⟩
  have hwg : ∀ p ∈ w, lmfExists LX.rows LS.rows Y.length p.2 := by
    intro p hp
    have hm := mem_streamOf hp
    rw [hw p.1] at hm
    obtain ⟨u, hu, hi⟩ := List.mem_flatMap.mp hm
    exact hgood u (hqlt _ u hu) _ hi
  let fac : LmfCell n → R := fun c => match c with
    | .factor u j => m (.X, LX.at u j)
    | .sum u j => m (.S, LS.at u j)
  have hsim := exec_simulates (act := lmfAct sigm sqrt eps lr reg) (act' := lmfActMem sigm sqrt eps lr reg LX LY LS)
    (lmfAbs Y) (fun s' s => s'.regs = s ∧ s'.bad = false) (Spec.HoldsLmf LX LY LS Y m)
    (lmfExists LX.rows LS.rows Y.length)
    (fun i hi s' s m' fac hs hm => lmfStep_mem sigm sqrt eps lr reg hX hY hS cX cY cS Y rY m i hi s' s m' fac hs hm)
    w hwg (fun t => ⟨σ t, false⟩) σ m fac (fun t => ⟨rfl, rfl⟩)
    ⟨fun _ _ _ => rfl, fun _ _ _ => rfl, mY, fun _ _ => rfl, fun _ _ => rfl, fun _ => rfl⟩
  have hw' : IsSchedule (fun u => lmfProg (lmfTaskData negProp C Y draws u).1 (lmfTaskData negProp C Y draws u).2 u)
      queue (w.map fun p => (p.1, lmfAbs Y p.2)) := by
    intro t
    rw [streamOf_map_snd, hw t, List.map_flatMap]
    have : ∀ l : List Nat, (∀ u ∈ l, u < side.factors.length) →
        (l.flatMap fun u => (lmfMemTask n negProp C draws u).map (lmfAbs Y)) =
        l.flatMap fun u => lmfProg (lmfTaskData negProp C Y draws u).1 (lmfTaskData negProp C Y draws u).2 u := by
      intro l hl
      induction l with
      | nil => rfl
      | cons u l ih =>
        rw [List.flatMap_cons, List.flatMap_cons, hprog u (hl u (by simp)), ih fun v hv => hl v (List.mem_cons_of_mem _ hv)]
    exact this _ (hqlt t)
  have hpar := C38_parallel sigm sqrt eps lr reg negProp C Y draws side side' h queue hq _ hw' σ fac
    (fun u x hx j => mX u x hx j) (fun u s hs j => mS u s hs j)
  obtain ⟨p1, p2, p3⟩ := hpar
  have hlen : side'.sums.length = side.sums.length := by
    unfold lmfUpdate at h
    cases ho : side.factors.zipIdx.mapM fun p =>
        lmfRowAt sigm sqrt eps lr reg negProp C Y draws side.sums p.2 p.1 with
    | error e => rw [ho] at h; cases h
    | ok out =>
      rw [ho] at h
      cases h
      have := (mapM_ok_iff ho).1
      simp only [List.length_append, List.length_map, List.length_drop]
      rw [this, List.length_zipIdx]
      have : side.factors.length ≤ side.sums.length := by
        by_contra hc
        have := (hdata (side.factors.length - 1) (by omega)).1
        omega
      omega
  have hrest : ∀ u, side.factors.length ≤ u → side'.sums[u]? = side.sums[u]? := by
    intro u hu
    unfold lmfUpdate at h
    cases ho : side.factors.zipIdx.mapM fun p =>
        lmfRowAt sigm sqrt eps lr reg negProp C Y draws side.sums p.2 p.1 with
    | error e => rw [ho] at h; cases h
    | ok out =>
      rw [ho] at h
      cases h
      have := (mapM_ok_iff ho).1
      rw [List.length_zipIdx] at this
      rw [List.getElem?_append_right (by simpa [this] using hu), List.getElem?_drop]
      simp only [List.length_map, this]
      congr 1
      omega
  refine ⟨?_, ?_, ?_, ?_, hsim.2.otherY, fun t => (hsim.1 t).2⟩
  · intro u x hx j
    rw [← p1 u x hx j]
    exact hsim.2.factor u j (by rw [rX, ← hl]; exact (List.getElem?_eq_some_iff.mp hx).1)
  · intro u s hs j
    have hu : u < LS.rows := by rw [rS, ← hlen]; exact (List.getElem?_eq_some_iff.mp hs).1
    show (execInterleaved _ w _ m).2 _ = _
    rw [hsim.2.sum u j hu]
    by_cases hlt : u < side.factors.length
    · exact p2 u s hlt hs j
    · rw [(p3 u j (by omega)).2]
      rw [hrest u (by omega)] at hs
      exact mS u s hs j
  · intro a ha
    exact hsim.2.otherX a fun u j hu hj => ha u j hu (cX ▸ hj)
  · intro a ha
    exact hsim.2.otherS a fun u j hu hj => ha u j hu (cS ▸ hj)

/-- Two users, one of them without items, three items and one drawn negative; factors and sums column by column. -/
example :
    let LX := Spec.fOrder 2 2
    let LY := Spec.fOrder 3 2
    let C : SpRows Rat := [[(2, 1)], []]
    let m : SgdArray × Nat → Rat := fun a => match a.1 with | .X => a.2 | .Y => a.2 + 1 | .S => 0
    let r := execInterleaved (lmfActMem (fun x => x) (fun x => x) 0 1 0 LX LY LX)
      ((lmfMemTask 2 1 C (fun _ _ => 0) 0).map fun i => ((), i)) (fun _ => ⟨fun _ => 9, false⟩) m
    let x : Vec 2 Rat := ![0, 2]
    let y : Vec 2 Rat := ![3, 6]
    let d : Vec 2 Rat := fun j => y j - dot x y * y j - dot x y * y j
    (∀ j : Fin 2, r.2 (.X, LX.at 0 j) = x j + 1 / (d j * d j) * d j) ∧
    r.2 (.X, LX.at 1 0) = 1 ∧ r.2 (.X, LX.at 1 1) = 3 ∧ (r.1 ()).bad = false := by
  decide +kernel

/-- Item factors with fewer columns than the user factors: `lmf_update` reads outside them. -/
theorem C81_lmf_columns_violated :
    let LX := Spec.cOrder 1 2
    let LY := Spec.cOrder 1 1
    let C : SpRows Rat := [[(0, 1)]]
    let r := execInterleaved (lmfActMem (fun x => x) (fun x => x) 1 1 0 LX LY LX)
      ((lmfMemTask 2 0 C (fun _ _ => 0) 0).map fun i => ((), i)) (fun _ => ⟨fun _ => 9, false⟩) fun a => a.2
    LX.Proper ∧ LY.Proper ∧ (r.1 ()).bad = true := by
  refine ⟨cOrder_proper _ _, cOrder_proper _ _, ?_⟩
  decide +kernel

end Implicit
