import Verif.Lemmas.LMF
import Verif.Lemmas.Transpose
import Verif.Spec.BPR
import Mathlib.Data.Rat.Floor

/-!
# C38 — LMF bias columns, cold rows and negative sampling

`C` is the user/item matrix (rows of (column, confidence), as CSR allows), `draws` the random negative
entries of every row in every epoch.
-/

set_option linter.unusedSectionVars false

namespace Implicit

open Spec

variable {R : Type} [LinearOrder R] [Field R] {f : Nat}

/-- The column lists of a sparse matrix. -/
def Spec.columns (C : SpRows R) : List (List Nat) := C.map fun r => r.map Prod.fst

theorem mapM_total {α β ε : Type} {g : α → Except ε β} : ∀ {l : List α},
    (∀ x ∈ l, ∃ y, g x = .ok y) → ∃ r, l.mapM g = .ok r
  | [], _ => ⟨[], rfl⟩
  | x :: l, h => by
    obtain ⟨y, hy⟩ := h x (by simp)
    obtain ⟨r, hr⟩ := mapM_total (l := l) (fun z hz => h z (by simp [hz]))
    exact ⟨y :: r, by rw [List.mapM_cons, hy, hr]; rfl⟩

theorem lmfUpdate_ok {sigm sqrt : R → R} {eps lr reg : R} {negProp : Int} {C : SpRows R} {Y : List (Vec f R)}
    {draws : Nat → Nat → Nat} {side side' : LmfSide f R}
    (h : lmfUpdate sigm sqrt eps lr reg negProp C Y draws side = .ok side') :
    side'.factors.length = side.factors.length ∧
    (∀ (u : Nat) (x : Vec f R), side.factors[u]? = some x →
      ∃ p, lmfRowAt sigm sqrt eps lr reg negProp C Y draws side.sums u x = .ok p ∧
        side'.factors[u]? = some p.1 ∧ side'.sums[u]? = some p.2) := by
  unfold lmfUpdate at h
  cases ho : side.factors.zipIdx.mapM fun p =>
      lmfRowAt sigm sqrt eps lr reg negProp C Y draws side.sums p.2 p.1 with
  | error e => rw [ho] at h; cases h
  | ok out =>
    rw [ho] at h
    cases h
    obtain ⟨hl, hr⟩ := mapM_ok_iff ho
    have hl' : out.length = side.factors.length := by simpa using hl
    refine ⟨by simpa using hl', fun u x hx => ?_⟩
    obtain ⟨hu, _⟩ := List.getElem?_eq_some_iff.mp hx
    obtain ⟨p, hp1, hp2⟩ := hr u (x, u) (by rw [List.getElem?_zipIdx, hx]; simp)
    refine ⟨p, hp1, by simp [hp2], ?_⟩
    dsimp only
    rw [List.getElem?_append_left (by simp [hl', hu])]
    simp [hp2]

/-- A row without stored entries is not moved. -/
theorem lmfUpdate_cold {sigm sqrt : R → R} {eps lr reg : R} {negProp : Int} {C : SpRows R} {Y : List (Vec f R)}
    {draws : Nat → Nat → Nat} {side side' : LmfSide f R}
    (h : lmfUpdate sigm sqrt eps lr reg negProp C Y draws side = .ok side') (u : Nat) (hc : C[u]? = some []) :
    side'.factors[u]? = side.factors[u]? := by
  obtain ⟨hl, hr⟩ := lmfUpdate_ok h
  cases hx : side.factors[u]? with
  | none =>
    rw [List.getElem?_eq_none_iff] at hx ⊢
    omega
  | some x =>
    obtain ⟨p, hp, hp1, _⟩ := hr u x hx
    unfold lmfRowAt at hp
    rw [hc] at hp
    cases hs : side.sums[u]? with
    | none => rw [hs] at hp; cases hp
    | some s =>
      rw [hs] at hp
      simp only [rowEntries, List.length_nil, lmfRowDraws, if_true, lmfNegRows, List.mapM_nil, bind, Except.bind,
        pure, Except.pure, lmfRow] at hp
      cases hp
      exact hp1

theorem setColumn_getElem? (j : Fin f) (X : List (Vec f R)) (u : Nat) :
    (setColumn j X)[u]? = (X[u]?).map fun x => Function.update x j 1 := by
  unfold setColumn
  rw [List.getElem?_map]

/-- Invariant of the epochs: cold rows are zero away from their bias column. -/
structure Spec.ColdZero (C : SpRows R) (j : Fin f) (X : List (Vec f R)) : Prop where
  length : X.length = C.length
  zero : ∀ (u : Nat) (x : Vec f R), C[u]? = some [] → X[u]? = some x → ∀ k, k ≠ j → x k = 0

theorem coldZero_step {sigm sqrt : R → R} {eps lr reg : R} {negProp : Int} {C : SpRows R} {Y : List (Vec f R)}
    {draws : Nat → Nat → Nat} {side side' : LmfSide f R}
    (h : lmfUpdate sigm sqrt eps lr reg negProp C Y draws side = .ok side') (j : Fin f)
    (hz : ColdZero C j side.factors) : ColdZero C j (setColumn j side'.factors) := by
  obtain ⟨hl, _⟩ := lmfUpdate_ok h
  refine ⟨by unfold setColumn; simpa [hl] using hz.length, fun u x hc hx k hk => ?_⟩
  rw [setColumn_getElem?, lmfUpdate_cold h u hc] at hx
  obtain ⟨x0, hx0, rfl⟩ := Option.map_eq_some_iff.mp hx
  rw [Function.update_of_ne hk]
  exact hz.zero u x0 hc hx0 k hk

theorem setColumn_one (j : Fin f) (X : List (Vec f R)) (x : Vec f R) (hx : x ∈ setColumn j X) :
    x j = 1 := by
  unfold setColumn at hx
  obtain ⟨y, _, rfl⟩ := List.mem_map.mp hx
  simp

variable {factors : Nat}

/-- Column `-2`. -/
def secondLast (factors : Nat) : Fin (factors + 2) := ⟨factors, by omega⟩

/-- Column `-1`. -/
def lastCol (factors : Nat) : Fin (factors + 2) := ⟨factors + 1, by omega⟩

/-- What the statement asks of the factors after training. -/
structure Spec.LmfConventions (C Ct : SpRows R) (st : LmfState (factors + 2) R) : Prop where
  userBias : ∀ x ∈ st.user.factors, x (secondLast factors) = 1
  itemBias : ∀ y ∈ st.item.factors, y (lastCol factors) = 1
  coldUser : ColdZero C (secondLast factors) st.user.factors
  coldItem : ColdZero Ct (lastCol factors) st.item.factors

theorem lmfEpoch_conventions {sigm sqrt : R → R} {eps lr reg : R} {negProp : Int} {C Ct : SpRows R}
    {st st' : LmfState (factors + 2) R} {d : LmfDraws}
    (h : lmfEpoch sigm sqrt eps lr reg negProp C Ct st d = .ok st')
    (hu : ColdZero C (secondLast factors) st.user.factors)
    (hi : ColdZero Ct (lastCol factors) st.item.factors) : LmfConventions C Ct st' := by
  unfold lmfEpoch at h
  cases h1 : lmfUpdate sigm sqrt eps lr reg negProp C st.item.factors d.user st.user with
  | error e => rw [h1] at h; cases h
  | ok user =>
    rw [h1] at h
    simp only [bind, Except.bind] at h
    split at h
    · cases h
    · rename_i item h2
      cases h
      exact ⟨fun x hx => setColumn_one _ _ x hx, fun x hx => setColumn_one _ _ x hx,
        coldZero_step h1 _ hu, coldZero_step h2 _ hi⟩

/-- **Training from any factors with zero cold rows** (in particular from a previous fit of the same
data): after at least one epoch the bias columns are 1 and the cold rows are zero elsewhere. -/
theorem C38_epochs (sigm sqrt : R → R) (eps lr reg : R) (negProp : Int) (C Ct : SpRows R) (draws : List LmfDraws)
    (st st' : LmfState (factors + 2) R) (h0 : draws ≠ [])
    (h : lmfEpochs sigm sqrt eps lr reg negProp C Ct draws st = .ok st')
    (hu : ColdZero C (secondLast factors) st.user.factors)
    (hi : ColdZero Ct (lastCol factors) st.item.factors) : LmfConventions C Ct st' := by
  induction draws generalizing st with
  | nil => exact absurd rfl h0
  | cons d ds ih =>
    unfold lmfEpochs at h
    cases h1 : lmfEpoch sigm sqrt eps lr reg negProp C Ct st d with
    | error e => rw [h1] at h; cases h
    | ok st1 =>
      rw [h1] at h
      simp only [bind, Except.bind] at h
      have hc := lmfEpoch_conventions h1 hu hi
      cases ds with
      | nil => cases h; exact hc
      | cons d' ds => exact ih st1 (by simp) h hc.coldUser hc.coldItem

theorem lmfInit_getElem? (n : Nat) (rand : Nat → Vec f R) (one : Fin f) (count : Nat → Nat) (u : Nat)
    (hu : u < n) : (lmfInit n rand one count)[u]? =
      some (if count u = 0 then fun _ => 0 else Function.update (rand u) one 1) := by
  unfold lmfInit
  rw [List.getElem?_map, List.getElem?_range hu]
  rfl

theorem lmf_item_cold (cols : Nat) (C : SpRows R) (i : Nat)
    (hc : (transposeRows cols C)[i]? = some []) : (lmfIndices C).count i = 0 := by
  rw [List.count_eq_zero]
  unfold lmfIndices
  rintro hm
  obtain ⟨e, he, hei⟩ := List.mem_map.mp hm
  obtain ⟨row, hrow, her⟩ := List.mem_flatten.mp he
  obtain ⟨u, hu, rfl⟩ := List.getElem_of_mem hrow
  have := (mem_transpose hc (u := u) (c := e.2)).mpr ⟨_, List.getElem?_eq_getElem hu, by
    rw [← hei]; exact her⟩
  simp at this

theorem lmfFit_init (cols : Nat) (C : SpRows R) (randItem randUser : Nat → Vec (factors + 2) R) :
    ColdZero C (secondLast factors)
      (lmfInit C.length randUser (secondLast factors) fun u => (C[u]?.getD []).length) ∧
    ColdZero (transposeRows cols C) (lastCol factors)
      (lmfInit cols randItem (lastCol factors) fun i => (lmfIndices C).count i) := by
  constructor
  · refine ⟨by simp [lmfInit], fun u x hc hx k _ => ?_⟩
    have hu : u < C.length := (List.getElem?_eq_some_iff.mp hc).1
    rw [lmfInit_getElem? _ _ _ _ u hu, hc] at hx
    simp at hx
    rw [← hx]
  · refine ⟨by simp [lmfInit, transpose_length], fun u x hc hx k _ => ?_⟩
    have hu : u < cols := by
      have := (List.getElem?_eq_some_iff.mp hc).1
      rwa [transpose_length] at this
    rw [lmfInit_getElem? _ _ _ _ u hu, lmf_item_cold cols C u hc] at hx
    simp at hx
    rw [← hx]

/-- **A fit from scratch** with at least one iteration: the bias columns are 1 for all users and all
items; users and items without interactions are zero in all other columns.  (Without iterations cold rows are entirely
zero, see `C38_no_iterations`.) -/
theorem C38_fit (sigm sqrt : R → R) (eps lr reg : R) (negProp : Int) (cols : Nat) (C : SpRows R)
    (randItem randUser : Nat → Vec (factors + 2) R) (draws : List LmfDraws) (h0 : draws ≠ [])
    (st : LmfState (factors + 2) R)
    (h : lmfFit sigm sqrt eps lr reg negProp cols C randItem randUser none none draws = .ok st) :
    st.user.factors.length = C.length ∧ st.item.factors.length = cols ∧
    (∀ x ∈ st.user.factors, x (secondLast factors) = 1) ∧
    (∀ y ∈ st.item.factors, y (lastCol factors) = 1) ∧
    (∀ (u : Nat) (x : Vec (factors + 2) R), ColdUser (columns C) u → st.user.factors[u]? = some x →
      ∀ k, k ≠ secondLast factors → x k = 0) ∧
    (∀ (i : Nat) (y : Vec (factors + 2) R), ColdItem (columns C) i → st.item.factors[i]? = some y →
      ∀ k, k ≠ lastCol factors → y k = 0) := by
  obtain ⟨hu, hi⟩ := lmfFit_init cols C randItem randUser
  have hc := C38_epochs sigm sqrt eps lr reg negProp C (transposeRows cols C) draws _ st h0 h hu hi
  have hul := hc.coldUser.length
  have hil := hc.coldItem.length
  rw [transpose_length] at hil
  refine ⟨hul, hil, hc.userBias, hc.itemBias, fun u x hcold hx => ?_, fun i y hcold hy => ?_⟩
  · have hlt : u < C.length := by rw [← hul]; exact (List.getElem?_eq_some_iff.mp hx).1
    refine hc.coldUser.zero u x ?_ hx
    rw [List.getElem?_eq_getElem hlt]
    congr 1
    rw [List.eq_nil_iff_forall_not_mem]
    intro e he
    refine hcold e.1 ⟨C[u].map Prod.fst, ?_, List.mem_map.mpr ⟨e, he, rfl⟩⟩
    simp [columns, hlt]
  · have hlt : i < cols := by rw [← hil]; exact (List.getElem?_eq_some_iff.mp hy).1
    have hlt' : i < (transposeRows cols C).length := by rw [transpose_length]; exact hlt
    refine hc.coldItem.zero i y ?_ hy
    have hg := List.getElem?_eq_getElem hlt'
    rw [hg]
    congr 1
    rw [List.eq_nil_iff_forall_not_mem]
    rintro ⟨u, c⟩ he
    obtain ⟨row, hrow, hmem⟩ := (mem_transpose hg).mp he
    refine hcold u ⟨row.map Prod.fst, ?_, List.mem_map.mpr ⟨_, hmem, rfl⟩⟩
    simp [columns, hrow]

/-! ## No undefined behaviour -/

omit [LinearOrder R] [Field R] in
theorem lmfNegRows_total (indices : List Nat) (Y : List (Vec f R)) (draws : List Nat)
    (hi : ∀ i ∈ indices, i < Y.length) (hd : ∀ d ∈ draws, d < indices.length) :
    ∃ r, lmfNegRows indices Y draws = .ok r := by
  refine mapM_total fun d hdm => ?_
  have h1 := hd d hdm
  rw [List.getElem?_eq_getElem h1]
  have h2 := hi _ (List.getElem_mem h1)
  dsimp only
  rw [List.getElem?_eq_getElem h2]
  exact ⟨_, rfl⟩

theorem lmfUpdate_total (sigm sqrt : R → R) (eps lr reg : R) (negProp : Int) (C : SpRows R) (Y : List (Vec f R))
    (draws : Nat → Nat → Nat) (side : LmfSide f R) (hf : side.factors.length = C.length)
    (hs : side.sums.length = C.length) (hC : ∀ row ∈ C, ∀ e ∈ row, e.1 < Y.length)
    (hd : ∀ u k, draws u k < (lmfIndices C).length) :
    ∃ side', lmfUpdate sigm sqrt eps lr reg negProp C Y draws side = .ok side' ∧
      side'.factors.length = C.length ∧ side'.sums.length = C.length := by
  have htot : ∃ out, side.factors.zipIdx.mapM (fun p =>
      lmfRowAt sigm sqrt eps lr reg negProp C Y draws side.sums p.2 p.1) = .ok out := by
    refine mapM_total fun p hp => ?_
    obtain ⟨k, hk, rfl⟩ := List.getElem_of_mem hp
    have hk' : k < side.factors.length := by simpa using hk
    have hkC : k < C.length := by omega
    have hks : k < side.sums.length := by omega
    simp only [List.getElem_zipIdx, Nat.zero_add]
    unfold lmfRowAt
    rw [List.getElem?_eq_getElem hkC, List.getElem?_eq_getElem hks]
    dsimp only
    rw [rowEntries_eq (hC _ (List.getElem_mem hkC))]
    obtain ⟨r, hr⟩ := lmfNegRows_total (lmfIndices C) Y (lmfRowDraws f negProp C[k].length (draws k))
      (by
        intro i hi
        obtain ⟨e, he, rfl⟩ := List.mem_map.mp hi
        obtain ⟨row, hrow, her⟩ := List.mem_flatten.mp he
        exact hC row hrow e her)
      (by
        intro d hdm
        unfold lmfRowDraws at hdm
        split at hdm
        · simp at hdm
        · obtain ⟨j, _, rfl⟩ := List.mem_map.mp hdm
          exact hd k j)
    simp only [bind, Except.bind, hr]
    exact ⟨_, rfl⟩
  obtain ⟨out, ho⟩ := htot
  have hol : out.length = C.length := by
    have := (mapM_ok_iff ho).1
    simp at this; omega
  refine ⟨⟨out.map Prod.fst, out.map Prod.snd ++ side.sums.drop side.factors.length⟩, ?_, ?_, ?_⟩
  · unfold lmfUpdate
    rw [ho]; rfl
  · simpa using hol
  · simp [hol, hs, hf]

theorem setColumn_length (j : Fin f) (X : List (Vec f R)) : (setColumn j X).length = X.length := by
  simp [setColumn]

omit [LinearOrder R] [Field R] in
theorem lmfIndices_transpose_length (cols : Nat) (C : SpRows R)
    (hv : ∀ row ∈ C, ∀ e ∈ row, e.1 < cols) :
    (lmfIndices (transposeRows cols C)).length = (lmfIndices C).length := by
  have h : (transposeRows cols C).flatten.length = C.flatten.length := by
    unfold transposeRows
    generalize 0 = k
    induction C generalizing k with
    | nil => simp
    | cons r C ih =>
      have e1 : ((List.range cols).map fun i => ((r :: C).zipIdx k).flatMap fun ru =>
            (ru.1.filter fun e => e.1 == i).map fun e => (ru.2, e.2)).flatten.length =
          ((List.range cols).map fun i => (r.filter fun e => e.1 == i).length).sum +
          ((List.range cols).map fun i => (C.zipIdx (k + 1)).flatMap fun ru =>
            (ru.1.filter fun e => e.1 == i).map fun e => (ru.2, e.2)).flatten.length := by
        rw [List.length_flatten, List.length_flatten, List.map_map, List.map_map, ← List.sum_map_add]
        congr 1
        refine List.map_congr_left fun i _ => ?_
        simp [List.zipIdx_cons]
      rw [e1, ih (fun row hrow => hv row (by simp [hrow])), List.flatten_cons, List.length_append]
      congr 1
      have hr := hv r (by simp)
      clear e1 ih hv
      induction r with
      | nil => simp
      | cons e r ihr =>
        have := ihr (fun e' h' => hr e' (by simp [h']))
        have e2 : ((List.range cols).map fun i => ((e :: r).filter fun e => e.1 == i).length) =
            (List.range cols).map fun i => (if i = e.1 then 1 else 0) +
              (r.filter fun e => e.1 == i).length := by
          refine List.map_congr_left fun i _ => ?_
          by_cases hi : e.1 = i
          · simp [hi, Nat.add_comm]
          · have : ¬ i = e.1 := fun h => hi h.symm
            simp [hi, this]
        rw [e2, List.sum_map_add, this, List.length_cons, Nat.add_comm]
        congr 1
        have hlt := hr e (by simp)
        have hcount : ((List.range cols).map fun i => if i = e.1 then 1 else 0).sum =
            (List.range cols).count e.1 := by
          rw [List.count, List.countP_eq_length_filter]
          induction List.range cols with
          | nil => rfl
          | cons a l ihl =>
            rw [List.map_cons, List.sum_cons, ihl, List.filter_cons]
            by_cases ha : a = e.1
            · simp [ha, Nat.add_comm]
            · simp [ha]
        rw [hcount, List.count_eq_one_of_mem List.nodup_range (by simpa using hlt)]
  unfold lmfIndices
  rw [List.length_map, List.length_map]
  exact h

/-- Epochs on factors and sums of the right sizes complete, and the sizes stay. -/
theorem lmfEpochs_total (sigm sqrt : R → R) (eps lr reg : R) (negProp : Int) (cols : Nat) (C : SpRows R)
    (hC : ∀ row ∈ C, ∀ e ∈ row, e.1 < cols) (draws : List LmfDraws)
    (hd : ∀ d ∈ draws, ∀ u k, d.user u k < nnz (columns C) ∧ d.item u k < nnz (columns C))
    (st : LmfState (factors + 2) R) (h1 : st.user.factors.length = C.length)
    (h2 : st.user.sums.length = C.length) (h3 : st.item.factors.length = cols)
    (h4 : st.item.sums.length = cols) :
    ∃ st', lmfEpochs sigm sqrt eps lr reg negProp C (transposeRows cols C) draws st = .ok st' ∧
      st'.user.factors.length = C.length ∧ st'.item.factors.length = cols := by
  have hn : nnz (columns C) = (lmfIndices C).length := by
    unfold nnz columns lmfIndices
    rw [List.length_map, List.length_flatten, List.map_map]
    congr 1
    exact List.map_congr_left fun r _ => by simp
  have hT : ∀ col ∈ transposeRows cols C, ∀ e ∈ col, e.1 < C.length := by
    intro col hcol e he
    obtain ⟨i, hi, rfl⟩ := List.getElem_of_mem hcol
    obtain ⟨row, hrow, _⟩ := (mem_transpose (List.getElem?_eq_getElem hi) (u := e.1) (c := e.2)).mp he
    exact (List.getElem?_eq_some_iff.mp hrow).1
  have hTn : (lmfIndices (transposeRows cols C)).length = (lmfIndices C).length :=
    lmfIndices_transpose_length cols C hC
  induction draws generalizing st with
  | nil => exact ⟨st, rfl, h1, h3⟩
  | cons d ds ih =>
    obtain ⟨user, hu, hu1, hu2⟩ := lmfUpdate_total sigm sqrt eps lr reg negProp C st.item.factors d.user
      st.user h1 h2 (by rw [h3]; exact hC) (fun u k => by
        rw [← hn]; exact (hd d (by simp) u k).1)
    obtain ⟨item, hi, hi1, hi2⟩ := lmfUpdate_total sigm sqrt eps lr reg negProp (transposeRows cols C)
      (setColumn ⟨factors, by omega⟩ user.factors) d.item st.item
      (by rw [transpose_length]; exact h3) (by rw [transpose_length]; exact h4)
      (by rw [setColumn_length, hu1]; exact hT)
      (fun u k => by rw [hTn, ← hn]; exact (hd d (by simp) u k).2)
    rw [transpose_length] at hi1 hi2
    unfold lmfEpochs lmfEpoch
    simp only [bind, Except.bind, hu, hi, pure, Except.pure]
    exact ih (fun d' h' => hd d' (by simp [h'])) _ (by simp [setColumn_length, hu1]) hu2
      (by simp [setColumn_length, hi1]) hi2

/-- **No undefined behaviour**: for a matrix with columns in range and draws below the number of stored
entries (what `uniform_int_distribution(0, nnz - 1)` gives) a fit from scratch completes. -/
theorem C38_total (sigm sqrt : R → R) (eps lr reg : R) (negProp : Int) (cols : Nat) (C : SpRows R)
    (hC : ∀ row ∈ C, ∀ e ∈ row, e.1 < cols) (randItem randUser : Nat → Vec (factors + 2) R)
    (draws : List LmfDraws)
    (hd : ∀ d ∈ draws, ∀ u k, d.user u k < nnz (columns C) ∧ d.item u k < nnz (columns C)) :
    ∃ st, lmfFit sigm sqrt eps lr reg negProp cols C randItem randUser none none draws = .ok st := by
  obtain ⟨st, h, _⟩ := lmfEpochs_total sigm sqrt eps lr reg negProp cols C hC draws hd
    ⟨⟨lmfInit C.length randUser ⟨factors, by omega⟩ fun u => (C[u]?.getD []).length,
      List.replicate C.length fun _ => 0⟩,
     ⟨lmfInit cols randItem ⟨factors + 1, by omega⟩ fun i => (lmfIndices C).count i,
      List.replicate cols fun _ => 0⟩⟩
    (by simp [lmfInit]) (by simp) (by simp [lmfInit]) (by simp)
  exact ⟨st, h⟩

/-! ## Every schedule -/

/-- The entries and negative samples of row `u`. -/
def lmfTaskData (negProp : Int) (C : SpRows R) (Y : List (Vec f R)) (draws : Nat → Nat → Nat) (u : Nat) :
    List (Vec f R × R) × List (Vec f R) :=
  match C[u]? with
  | none => ([], [])
  | some row =>
    match rowEntries .undefinedBehaviour Y row,
        lmfNegRows (lmfIndices C) Y (lmfRowDraws f negProp row.length (draws u)) with
    | .ok pos, .ok neg => (pos, neg)
    | _, _ => ([], [])

/-- **The parallel loop** gives the same factors and sums as the rows one after the other, whatever the
threads, the assignment and the interleaving (given the negative samples each row drew). -/
theorem C38_parallel {Th : Type} [DecidableEq Th] (sigm sqrt : R → R) (eps lr reg : R) (negProp : Int) (C : SpRows R)
    (Y : List (Vec f R)) (draws : Nat → Nat → Nat) (side side' : LmfSide f R)
    (h : lmfUpdate sigm sqrt eps lr reg negProp C Y draws side = .ok side')
    (queue : Th → List Nat) (hq : Assignment side.factors.length queue)
    (w : List (Th × LmfInstr f R))
    (hw : IsSchedule (fun u => lmfProg (lmfTaskData negProp C Y draws u).1 (lmfTaskData negProp C Y draws u).2 u)
      queue w)
    (σ : Th → Vec f R) (m : LmfCell f → R)
    (hm : ∀ (u : Nat) (x : Vec f R), side.factors[u]? = some x → ∀ j, m (.factor u j) = x j)
    (hs : ∀ (u : Nat) (s : Vec f R), side.sums[u]? = some s → ∀ j, m (.sum u j) = s j) :
    let m' := (execInterleaved (lmfAct sigm sqrt eps lr reg) w σ m).2
    (∀ (u : Nat) (x : Vec f R), side'.factors[u]? = some x → ∀ j, m' (.factor u j) = x j) ∧
    (∀ (u : Nat) (s : Vec f R), u < side.factors.length → side'.sums[u]? = some s →
      ∀ j, m' (.sum u j) = s j) ∧
    (∀ u j, side.factors.length ≤ u → m' (.factor u j) = m (.factor u j) ∧
      m' (.sum u j) = m (.sum u j)) := by
  intro m'
  obtain ⟨hl, hr⟩ := lmfUpdate_ok h
  obtain ⟨h1, h2⟩ := parallel_for (lmf_taskSpec sigm sqrt eps lr reg
    (fun u => (lmfTaskData negProp C Y draws u).1) fun u => (lmfTaskData negProp C Y draws u).2) queue hq.nodup
    hq.disjoint w hw σ (fun _ => trivial) m
  have key : ∀ u, u < side.factors.length → ∃ p : Vec f R × Vec f R, side'.factors[u]? = some p.1 ∧
      side'.sums[u]? = some p.2 ∧ ∀ j, m' (.factor u j) = p.1 j ∧ m' (.sum u j) = p.2 j := by
    intro u hu
    have hx := List.getElem?_eq_getElem hu
    obtain ⟨p, hp, hp1, hp2⟩ := hr u _ hx
    refine ⟨p, hp1, hp2, ?_⟩
    obtain ⟨th, hth⟩ := (hq.covers u).mp hu
    have hX : (fun j => m (.factor u j)) = side.factors[u] := funext fun j => hm u _ hx j
    unfold lmfRowAt at hp
    cases hC : C[u]? with
    | none => rw [hC] at hp; cases hp
    | some row =>
      cases hss : side.sums[u]? with
      | none => rw [hC, hss] at hp; cases hp
      | some s =>
        rw [hC, hss] at hp
        simp only [bind, Except.bind] at hp
        cases hpos : rowEntries .undefinedBehaviour Y row with
        | error e => rw [hpos] at hp; cases hp
        | ok pos =>
          rw [hpos] at hp
          simp only at hp
          cases hneg : lmfNegRows (lmfIndices C) Y (lmfRowDraws f negProp row.length (draws u)) with
          | error e => rw [hneg] at hp; cases hp
          | ok neg =>
            rw [hneg] at hp
            cases hp
            have hdata : lmfTaskData negProp C Y draws u = (pos, neg) := by
              unfold lmfTaskData
              rw [hC]
              simp only [hpos, hneg]
            have hS : (fun j => m (.sum u j)) = s := funext fun j => hs u s hss j
            intro j
            constructor
            · have := h1 th u hth (.factor u j) (Or.inl ⟨j, rfl⟩)
              show (execInterleaved _ w σ m).2 _ = _
              rw [this, hdata]
              simp only [lmfTask, hX, hS]
            · have := h1 th u hth (.sum u j) (Or.inr ⟨j, rfl⟩)
              show (execInterleaved _ w σ m).2 _ = _
              rw [this, hdata]
              simp only [lmfTask, hX, hS]
  refine ⟨fun u x hx j => ?_, fun u s hu hx j => ?_, fun u j hu => ?_⟩
  · have hu : u < side.factors.length := by
      rw [← hl]; exact (List.getElem?_eq_some_iff.mp hx).1
    obtain ⟨p, hp1, _, hp⟩ := key u hu
    rw [hx] at hp1; cases hp1
    exact (hp j).1
  · obtain ⟨p, _, hp2, hp⟩ := key u hu
    rw [hx] at hp2; cases hp2
    exact (hp j).2
  · have : ∀ th, ∀ t ∈ queue th, t ≠ u := by
      rintro th t ht rfl
      have := (hq.covers t).mpr ⟨th, ht⟩
      omega
    constructor
    · refine h2 (.factor u j) fun th t ht ha => this th t ht ?_
      rcases ha with ⟨k, hk⟩ | ⟨k, hk⟩ <;> cases hk
      rfl
    · refine h2 (.sum u j) fun th t ht ha => this th t ht ?_
      rcases ha with ⟨k, hk⟩ | ⟨k, hk⟩ <;> cases hk
      rfl

/-! ## Negative sampling -/

/-- `neg_prop` negative samples per seen entry, at most as many as there are items. -/
def Spec.negativeSamples (items seen negProp : Nat) : Nat := min items (seen * negProp)

/-- The number of samples is right as long as it does not exceed the number of factor columns. -/
theorem C38_negatives_partial (items seen negProp : Nat) (draw : Nat → Nat)
    (h : seen * negProp ≤ factors + 2)
    (hi : seen * negProp ≤ items) :
    (lmfRowDraws (factors + 2) negProp seen draw).length = negativeSamples items seen negProp := by
  have hlen : (lmfRowDraws (factors + 2) negProp seen draw).length =
      lmfNegatives (factors + 2) seen negProp := by
    unfold lmfRowDraws
    split
    · rename_i h0; subst h0; simp [lmfNegatives]; omega
    · simp
  rw [hlen]
  unfold lmfNegatives negativeSamples
  rw [Nat.min_eq_right hi]
  have : (seen : Int) * (negProp : Int) = ((seen * negProp : Nat) : Int) := by push_cast; ring
  rw [this, min_eq_right (by exact_mod_cast h)]
  rfl

/-- **The cap is the number of factor columns, not of items** (`item_vectors.shape[1]`): with the
defaults (30 factors, `neg_prop=30`), a catalogue of 10000 items and a user with 10 items, 32 negative
samples are drawn instead of 300. -/
theorem C38_negatives_violated :
    (lmfRowDraws (30 + 2) 30 10 fun _ => 0).length = 32 ∧ negativeSamples 10000 10 30 = 300 := by
  decide

/-- More generally the number never exceeds the number of columns, however many entries were seen. -/
theorem C38_negatives_bound (f seen : Nat) (negProp : Int) (draw : Nat → Nat) :
    (lmfRowDraws f negProp seen draw).length ≤ f := by
  unfold lmfRowDraws lmfNegatives
  split
  · simp
  · simp

/-- Without iterations cold rows have no bias either. -/
theorem C38_no_iterations (sigm sqrt : R → R) (eps lr reg : R) (negProp : Int) (rand : Nat → Vec (factors + 2) R) :
    ∃ st, lmfFit sigm sqrt eps lr reg negProp 1 [[]] rand rand none none [] = .ok st ∧
      st.user.factors = [fun _ => 0] ∧ st.item.factors = [fun _ => 0] :=
  ⟨_, rfl, by simp [lmfInit], by simp [lmfInit, lmfIndices]⟩

/-- A run over the rationals (constant sigmoid and square root): user 0 likes item 0, user 1 and item 1 are
cold; two epochs with one negative sample per entry. -/
def lmfExample : Except Err (LmfState 3 ℚ) :=
  lmfFit (factors := 1) (fun _ => 1 / 2) (fun _ => 1) 0 1 0 1 2 [[(0, 2)], []]
    (fun _ _ => 1) (fun _ _ => 2) none none (List.replicate 2 ⟨fun _ _ => 0, fun _ _ => 0⟩)

/-- User and item factors as lists. -/
def lmfShow (r : Except Err (LmfState 3 ℚ)) : Option (List (List ℚ) × List (List ℚ)) :=
  match r with
  | .ok st => some (st.user.factors.map List.ofFn, st.item.factors.map List.ofFn)
  | .error _ => none

example : lmfShow lmfExample =
    some ([[29 / 8, 1, 3], [0, 1, 0]], [[65 / 16, 2, 1], [0, 0, 1]]) := by
  decide +kernel

end Implicit
