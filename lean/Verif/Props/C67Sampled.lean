import Verif.Props.C67
import Verif.Lemmas.BPR
import Verif.Model.LMF
/-!
# C67 — renaming and the models trained on random samples (BPR, LMF)

BPR and LMF draw stored entries by their position in the matrix.  Renaming moves the entries to other positions; the positions are
permuted by some `π`, so a run on the renamed matrix whose draws are `π` of the draws of a run on the matrix does the same with other
names.  Uniform draws stay uniform draws under a permutation of the positions.
-/

set_option linter.unusedSectionVars false

namespace Implicit

open Spec (Renamed RenamedMatrix Agree)

namespace Spec

/-- The matrix `rows'` (column lists) is `rows` with users renamed by `σ` and items by `τ`, entries of a row in any order. -/
def RenamedRows (σ τ : Equiv.Perm Nat) (rows rows' : List (List Nat)) : Prop :=
  ∀ u, Option.Rel (fun row row' => row'.Perm (row.map τ)) rows[u]? rows'[σ u]?

end Spec

open Spec (RenamedRows)

variable {R : Type} [LinearOrder R] [Field R] {f : Nat}

/-! ## Positions -/

/-- `0` stays, `k + 1` goes to `π k + 1`. -/
def shiftPerm (π : Equiv.Perm Nat) : Equiv.Perm Nat where
  toFun
    | 0 => 0
    | k + 1 => π k + 1
  invFun
    | 0 => 0
    | k + 1 => π.symm k + 1
  left_inv k := by cases k <;> simp
  right_inv k := by cases k <;> simp

/-- The elements of a reordered list are found under permuted positions. -/
theorem perm_positions {α : Type} {l l' : List α} (h : l.Perm l') : ∃ π : Equiv.Perm Nat, Renamed π l l' := by
  induction h with
  | nil => exact ⟨1, fun _ => rfl⟩
  | cons x _ ih =>
    obtain ⟨π, hπ⟩ := ih
    refine ⟨shiftPerm π, fun k => ?_⟩
    cases k with
    | zero => rfl
    | succ k => simpa [shiftPerm] using hπ k
  | swap x y l =>
    refine ⟨Equiv.swap 0 1, fun k => ?_⟩
    match k with
    | 0 => simp
    | 1 => simp
    | k + 2 =>
      rw [Equiv.swap_apply_of_ne_of_ne (by omega) (by omega)]
      simp
  | trans _ _ ih1 ih2 =>
    obtain ⟨π, hπ⟩ := ih1
    obtain ⟨ρ, hρ⟩ := ih2
    exact ⟨π.trans ρ, fun k => by rw [Equiv.trans_apply, hρ, hπ]⟩

/-- The stored entries `(row, column)`, row after row. -/
def cellsOf (rows : List (List Nat)) : List (Nat × Nat) :=
  (List.range rows.length).flatMap fun u => (rows[u]?.getD []).map fun c => (u, c)

theorem cellsOf_zipIdx (rows : List (List Nat)) : cellsOf rows = rows.zipIdx.flatMap fun p => p.1.map fun c => (p.2, c) := by
  unfold cellsOf
  rw [show rows.zipIdx = (List.range rows.length).map fun u => (rows[u]?.getD [], u) from ?_, List.flatMap_map]
  apply List.ext_getElem?
  intro k
  rw [List.getElem?_zipIdx, List.getElem?_map]
  by_cases hk : k < rows.length
  · rw [List.getElem?_range hk, List.getElem?_eq_getElem hk]
    simp [List.getElem?_eq_getElem hk]
  · rw [List.getElem?_eq_none (by omega), List.getElem?_eq_none (by simpa using hk)]
    rfl

theorem cellsOf_snd (rows : List (List Nat)) : (cellsOf rows).map Prod.snd = rows.flatten := by
  rw [cellsOf_zipIdx, List.map_flatMap]
  have : ∀ n, (rows.zipIdx n).flatMap (fun a => List.map Prod.snd (List.map (fun c => (a.2, c)) a.1)) = rows.flatten := by
    intro n
    induction rows generalizing n with
    | nil => rfl
    | cons r rows ih =>
      rw [List.zipIdx_cons, List.flatMap_cons, ih, List.flatten_cons]
      simp
  exact this 0

theorem cellsOf_fst (rows : List (List Nat)) : (cellsOf rows).map Prod.fst = useridsOf rows := by
  rw [cellsOf_zipIdx, List.map_flatMap, useridsOf]
  refine List.flatMap_congr fun p _ => ?_
  simp [List.map_map, Function.comp_def]

theorem RenamedRows_lt {σ τ : Equiv.Perm Nat} {rows rows' : List (List Nat)} (h : RenamedRows σ τ rows rows') (u : Nat) :
    σ u < rows'.length ↔ u < rows.length := by
  have h := h u
  rw [← not_iff_not, not_lt, not_lt, ← List.getElem?_eq_none_iff, ← List.getElem?_eq_none_iff]
  cases h1 : rows[u]? <;> cases h2 : rows'[σ u]? <;> rw [h1, h2] at h <;> simp_all

theorem range_perm {σ : Equiv.Perm Nat} {m n : Nat} (h : ∀ u : Nat, σ u < n ↔ u < m) :
    (List.range n).Perm ((List.range m).map σ) := by
  refine (List.perm_ext_iff_of_nodup List.nodup_range (List.nodup_range.map σ.injective)).mpr ?_
  intro i
  rw [List.mem_range, List.mem_map]
  constructor
  · intro hi
    refine ⟨σ.symm i, ?_, by simp⟩
    rw [List.mem_range, ← h]
    simpa using hi
  · rintro ⟨j, hj, rfl⟩
    exact (h j).mpr (List.mem_range.mp hj)

/-- The stored entries of the renamed matrix are the renamed entries. -/
theorem cellsOf_renamed {σ τ : Equiv.Perm Nat} {rows rows' : List (List Nat)} (h : RenamedRows σ τ rows rows') :
    ((cellsOf rows).map fun p => (σ p.1, τ p.2)).Perm (cellsOf rows') := by
  refine List.Perm.symm ?_
  unfold cellsOf
  refine ((range_perm (RenamedRows_lt h)).flatMap_right _).trans ?_
  rw [List.flatMap_map, List.map_flatMap]
  refine List.Perm.flatMap_left _ fun u _ => ?_
  have hu := h u
  cases h1 : rows[u]? <;> cases h2 : rows'[σ u]? <;> rw [h1, h2] at hu
  · simp
  · cases hu
  · cases hu
  · cases hu with
    | some hu => simpa [List.map_map, Function.comp_def] using hu.map (fun c => (σ u, c))

/-- The positions of the stored entries. -/
theorem positions_renamed {σ τ : Equiv.Perm Nat} {rows rows' : List (List Nat)} (h : RenamedRows σ τ rows rows') :
    ∃ π : Equiv.Perm Nat, (∀ k, rows'.flatten[π k]? = (rows.flatten[k]?).map τ) ∧
      ∀ k, (useridsOf rows')[π k]? = ((useridsOf rows)[k]?).map σ := by
  obtain ⟨π, hπ⟩ := perm_positions (cellsOf_renamed h)
  refine ⟨π, fun k => ?_, fun k => ?_⟩
  · rw [← cellsOf_snd, ← cellsOf_snd, List.getElem?_map, hπ k]
    simp [Function.comp_def]
  · rw [← cellsOf_fst, ← cellsOf_fst, List.getElem?_map, hπ k]
    simp [Function.comp_def]

/-! ## BPR -/

theorem bprRows_renamed (verify : Bool) {σ τ : Equiv.Perm Nat} {rows rows' : List (List Nat)} (h : RenamedRows σ τ rows rows') :
    RenamedRows σ τ (bprRows verify rows) (bprRows verify rows') := by
  have key : ∀ (l : List (List Nat)) (u : Nat), Option.Rel (fun a b : List Nat => b.Perm a) l[u]? (bprRows verify l)[u]? := by
    intro l u
    unfold bprRows
    split
    · rw [List.getElem?_map]
      cases l[u]? with
      | none => exact .none
      | some r => exact .some (List.perm_insertionSort _ r)
    · cases l[u]? with
      | none => exact .none
      | some r => exact .some (List.Perm.refl r)
  intro u
  have h1 := key rows u
  have h2 := key rows' (σ u)
  have h3 := h u
  cases e1 : rows[u]? <;> cases e2 : rows'[σ u]? <;> rw [e1] at h1 h3 <;> rw [e2] at h2 h3
  · cases e3 : (bprRows verify rows)[u]? <;> cases e4 : (bprRows verify rows')[σ u]? <;> rw [e3] at h1 <;> rw [e4] at h2
    · exact .none
    · cases h2
    · cases h1
    · cases h1
  · cases h3
  · cases h3
  · rename_i r r'
    cases e3 : (bprRows verify rows)[u]? <;> cases e4 : (bprRows verify rows')[σ u]? <;> rw [e3] at h1 <;> rw [e4] at h2
    · cases h1
    · cases h1
    · cases h2
    · cases h1 with
      | some h1 => cases h2 with
        | some h2 => cases h3 with
          | some h3 => exact .some (h2.trans (h3.trans (h1.symm.map τ)))

/-- The renamed sample. -/
def BprTriple.rename (σ τ : Equiv.Perm Nat) (t : BprTriple) : BprTriple := ⟨σ t.user, τ t.liked, τ t.disliked⟩

/-- The renamed instruction. -/
def BprInstr.rename (σ τ : Equiv.Perm Nat) : BprInstr → BprInstr
  | .skip => .skip
  | .zero => .zero
  | .loadUser t j => .loadUser (t.rename σ τ) j
  | .loadLiked t j => .loadLiked (t.rename σ τ) j
  | .loadDisliked t j => .loadDisliked (t.rename σ τ) j
  | .score => .score
  | .logistic => .logistic
  | .keep => .keep
  | .storeUser t j => .storeUser (t.rename σ τ) j
  | .storeLiked t j => .storeLiked (t.rename σ τ) j
  | .storeDisliked t j => .storeDisliked (t.rename σ τ) j
  | .storeLikedBias t j => .storeLikedBias (t.rename σ τ) j
  | .storeDislikedBias t j => .storeDislikedBias (t.rename σ τ) j

/-- The renamed coordinate. -/
def BprCell.rename (σ τ : Equiv.Perm Nat) : BprCell → BprCell
  | .user u j => .user (σ u) j
  | .item i j => .item (τ i) j

theorem BprCell.rename_injective (σ τ : Equiv.Perm Nat) : Function.Injective (BprCell.rename σ τ) := by
  intro c c' h
  cases c <;> cases c' <;> simp_all [BprCell.rename]

/-- The same epoch with renamed rows: the draws are the positions of the renamed entries, the threads interleave in the same way. -/
def BprEpoch.rename {Th : Type} (σ τ π : Equiv.Perm Nat) (e : BprEpoch Th) : BprEpoch Th :=
  ⟨fun t => (e.draws t).map fun d => (π d.1, π d.2), e.schedule.map fun p => (p.1, p.2.rename σ τ)⟩

theorem bprChoose_renamed (verify : Bool) {σ τ : Equiv.Perm Nat} {rows rows' : List (List Nat)} (h : RenamedRows σ τ rows rows')
    (hs : verify = true → ∀ r ∈ rows, r.Pairwise (· ≤ ·)) (hs' : verify = true → ∀ r ∈ rows', r.Pairwise (· ≤ ·))
    {π : Equiv.Perm Nat} (hi : ∀ k, rows'.flatten[π k]? = (rows.flatten[k]?).map τ)
    (hu : ∀ k, (useridsOf rows')[π k]? = ((useridsOf rows)[k]?).map σ) (l d : Nat) :
    bprChoose verify rows' (π l) (π d) = (bprChoose verify rows l d).map (Option.map (BprTriple.rename σ τ)) := by
  unfold bprChoose
  rw [hi l, hi d, hu l]
  cases h1 : rows.flatten[l]? with
  | none => rfl
  | some i =>
    obtain ⟨u, r, h2, hr, _⟩ := userids_spec rows l i h1
    rw [h2]
    cases h3 : rows.flatten[d]? with
    | none => rfl
    | some j =>
      cases verify with
      | false => rfl
      | true =>
        have hru := h u
        rw [hr] at hru
        cases hr' : rows'[σ u]? with
        | none => rw [hr'] at hru; cases hru
        | some r' =>
          rw [hr'] at hru
          cases hru with
          | some hp =>
            obtain ⟨b, hb, hb'⟩ := hasNonZero_spec rows u r hr (hs rfl r (List.mem_of_getElem? hr)) j
            obtain ⟨c, hc, hc'⟩ := hasNonZero_spec rows' (σ u) r' hr' (hs' rfl r' (List.mem_of_getElem? hr')) (τ j)
            have hbc : c = b := by
              rw [Bool.eq_iff_iff, hb', hc', hp.mem_iff]
              exact ⟨fun hm => by obtain ⟨a, ha, hat⟩ := List.mem_map.mp hm; rwa [← τ.injective hat], fun hm => List.mem_map_of_mem hm⟩
            simp only [Option.map_some, if_true, hb, hc, hbc]
            cases b <;> rfl

theorem bprUpdateProg_renamed (σ τ : Equiv.Perm Nat) (factors : Nat) (t : BprTriple) :
    bprUpdateProg factors (t.rename σ τ) = (bprUpdateProg factors t).map (BprInstr.rename σ τ) := by
  simp only [bprUpdateProg, List.map_append, List.map_flatMap, List.map_cons, List.map_nil, BprInstr.rename]
  rfl

theorem bprAct_renamed (sig : R → R) (lr reg : R) (σ τ : Equiv.Perm Nat) (i : BprInstr) (s : BprScratch R) {m m' : BprCell → R}
    (hm : ∀ c : BprCell, m' (c.rename σ τ) = m c) :
    (bprAct sig lr reg (i.rename σ τ) s m').1 = (bprAct sig lr reg i s m).1 ∧
    ∀ c : BprCell, (bprAct sig lr reg (i.rename σ τ) s m').2 (c.rename σ τ) = (bprAct sig lr reg i s m).2 c := by
  have up : ∀ (c0 : BprCell) (v : R) (c : BprCell),
      Function.update m' (c0.rename σ τ) v (c.rename σ τ) = Function.update m c0 v c := by
    intro c0 v c
    by_cases h : c = c0
    · subst h; simp
    · rw [Function.update_of_ne h, Function.update_of_ne (fun h' => h (BprCell.rename_injective σ τ h')), hm]
  have hmu : ∀ u j, m' (.user (σ u) j) = m (.user u j) := fun u j => hm (.user u j)
  have hmi : ∀ i j, m' (.item (τ i) j) = m (.item i j) := fun i j => hm (.item i j)
  cases i <;> simp only [BprInstr.rename, bprAct, BprTriple.rename, hmu, hmi, true_and] <;>
    first
    | exact hm
    | exact ⟨trivial, hm⟩
    | exact fun c => up (.user _ _) _ c
    | exact fun c => up (.item _ _) _ c

theorem exec_renamed {Th : Type} [DecidableEq Th] (sig : R → R) (lr reg : R) (σ τ : Equiv.Perm Nat) :
    ∀ (w : List (Th × BprInstr)) (s : Th → BprScratch R) (m m' : BprCell → R), (∀ c : BprCell, m' (c.rename σ τ) = m c) →
      (execInterleaved (bprAct sig lr reg) (w.map fun p => (p.1, p.2.rename σ τ)) s m').1 =
        (execInterleaved (bprAct sig lr reg) w s m).1 ∧
      ∀ c : BprCell, (execInterleaved (bprAct sig lr reg) (w.map fun p => (p.1, p.2.rename σ τ)) s m').2 (c.rename σ τ) =
        (execInterleaved (bprAct sig lr reg) w s m).2 c
  | [], s, m, m', hm => ⟨rfl, hm⟩
  | (t, i) :: w, s, m, m', hm => by
    obtain ⟨h1, h2⟩ := bprAct_renamed sig lr reg σ τ i (s t) hm
    simp only [List.map_cons, execInterleaved, h1]
    exact exec_renamed sig lr reg σ τ w _ _ _ h2

theorem streamOf_renamed {Th : Type} [DecidableEq Th] (σ τ : Equiv.Perm Nat) (t : Th) (w : List (Th × BprInstr)) :
    streamOf t (w.map fun p => (p.1, p.2.rename σ τ)) = (streamOf t w).map (BprInstr.rename σ τ) := by
  unfold streamOf
  rw [List.filter_map, List.map_map, List.map_map]
  rfl

/-- The renamed epoch is one the code can perform on the renamed matrix. -/
theorem bprEpoch_renamed_valid {Th : Type} [DecidableEq Th] [Fintype Th] (verify : Bool) {σ τ : Equiv.Perm Nat}
    {rows rows' : List (List Nat)} (h : RenamedRows σ τ rows rows')
    (hs : verify = true → ∀ r ∈ rows, r.Pairwise (· ≤ ·)) (hs' : verify = true → ∀ r ∈ rows', r.Pairwise (· ≤ ·))
    {π : Equiv.Perm Nat} (hi : ∀ k, rows'.flatten[π k]? = (rows.flatten[k]?).map τ)
    (hu : ∀ k, (useridsOf rows')[π k]? = ((useridsOf rows)[k]?).map σ) (factors : Nat) (e : BprEpoch Th)
    (he : e.Valid verify rows factors) : (e.rename σ τ π).Valid verify rows' factors := by
  have hlt : ∀ k : Nat, π k < rows'.flatten.length ↔ k < rows.flatten.length := by
    intro k
    rw [← not_iff_not, not_lt, not_lt, ← List.getElem?_eq_none_iff, ← List.getElem?_eq_none_iff, hi k, Option.map_eq_none_iff]
  refine ⟨fun t => ?_, fun t d hd => ?_, ?_⟩
  · show streamOf t (e.schedule.map fun p => (p.1, p.2.rename σ τ)) = _
    rw [streamOf_renamed, he.schedule t, List.map_flatMap]
    show _ = ((e.draws t).map fun d => (π d.1, π d.2)).flatMap _
    rw [List.flatMap_map]
    refine List.flatMap_congr fun d _ => ?_
    unfold bprProg
    rw [bprChoose_renamed verify h hs hs' hi hu]
    cases bprChoose verify rows d.1 d.2 with
    | error e => rfl
    | ok o =>
      cases o with
      | none => rfl
      | some t => exact (bprUpdateProg_renamed σ τ factors t).symm
  · obtain ⟨d0, hd0, rfl⟩ := List.mem_map.mp hd
    exact ⟨(hlt _).mpr (he.draws t d0 hd0).1, (hlt _).mpr (he.draws t d0 hd0).2⟩
  · rw [card_lt_eq hlt, ← he.samples]
    simp [BprEpoch.rename]

theorem bprEpochs_renamed {Th : Type} [DecidableEq Th] (sig : R → R) (lr reg : R) (σ τ π : Equiv.Perm Nat)
    (s : Th → BprScratch R) : ∀ (es : List (BprEpoch Th)) (m m' : BprCell → R), (∀ c : BprCell, m' (c.rename σ τ) = m c) →
      ∀ c : BprCell, bprEpochs sig lr reg s (es.map (BprEpoch.rename σ τ π)) m' (c.rename σ τ) = bprEpochs sig lr reg s es m c
  | [], _, _, hm => hm
  | e :: es, m, m', hm => bprEpochs_renamed sig lr reg σ τ π s es _ _
      (exec_renamed sig lr reg σ τ e.schedule _ m m' hm).2

theorem count_renamed {τ : Equiv.Perm Nat} {l l' : List Nat} (h : l'.Perm (l.map τ)) (i : Nat) : l'.count (τ i) = l.count i := by
  rw [h.count_eq, List.count_map_of_injective _ _ τ.injective]

theorem bprInit_renamed (factors : Nat) {σ τ : Equiv.Perm Nat} {rows rows' : List (List Nat)} (h : RenamedRows σ τ rows rows')
    {randItem randItem' randUser randUser' : Nat → Nat → R} (hri : ∀ i j, randItem' (τ i) j = randItem i j)
    (hru : ∀ u j, randUser' (σ u) j = randUser u j) {item item' user user' : Option (Nat → Nat → R)}
    (hit : Option.Rel (fun a b => ∀ i j, b (τ i) j = a i j) item item')
    (hus : Option.Rel (fun a b => ∀ u j, b (σ u) j = a u j) user user') (c : BprCell) :
    bprInit factors randItem' randUser' rows' item' user' (c.rename σ τ) = bprInit factors randItem randUser rows item user c := by
  cases c with
  | item i j =>
    show (item'.getD _) (τ i) j = (item.getD _) i j
    cases hit with
    | some hit => exact hit i j
    | none =>
      have hp : rows'.flatten.Perm (rows.flatten.map τ) := by
        rw [← cellsOf_snd, ← cellsOf_snd]
        simpa [List.map_map, Function.comp_def] using ((cellsOf_renamed h).symm.map Prod.snd)
      show bprItemInit factors randItem' rows'.flatten (τ i) j = bprItemInit factors randItem rows.flatten i j
      unfold bprItemInit
      rw [count_renamed hp, hri]
  | user u j =>
    show (user'.getD _) (σ u) j = (user.getD _) u j
    cases hus with
    | some hus => exact hus u j
    | none =>
      show bprUserInit factors randUser' rows' (σ u) j = bprUserInit factors randUser rows u j
      unfold bprUserInit
      have hl : (rows'[σ u]?.getD []).length = (rows[u]?.getD []).length := by
        have hu := h u
        generalize rows[u]? = a at hu ⊢
        generalize rows'[σ u]? = b at hu ⊢
        cases hu with
        | none => rfl
        | some hu => simpa using hu.length_eq
      rw [hl, hru]

/-- **C67** (renaming, BPR).  Let `matrix'` be the training matrix with users and items renamed.  Its stored entries are the renamed
entries at permuted positions `π`, and every training run on `matrix` — any threads, interleaving of their instructions and draws —
corresponds to the run on `matrix'` that draws the positions `π`: it is a run the code can perform, it reports the same counts, and
it computes the renamed factors.  The draws being uniform over the positions, renaming does not change the distribution of the
trained model. -/
theorem C67_bpr {Th : Type} [DecidableEq Th] [Fintype Th] (sig : R → R) (lr reg : R) (verify : Bool) (factors : Nat)
    {σ τ : Equiv.Perm Nat} {matrix matrix' : List (List Nat)} (h : RenamedRows σ τ matrix matrix') :
    ∃ π : Equiv.Perm Nat,
      (∀ k, (bprRows verify matrix').flatten[π k]? = ((bprRows verify matrix).flatten[k]?).map τ) ∧
      (∀ k, (useridsOf (bprRows verify matrix'))[π k]? = ((useridsOf (bprRows verify matrix))[k]?).map σ) ∧
      (∀ e : BprEpoch Th, e.Valid verify (bprRows verify matrix) factors →
        (e.rename σ τ π).Valid verify (bprRows verify matrix') factors) ∧
      (∀ (s : Th → BprScratch R) (e : BprEpoch Th) (m m' : BprCell → R), (∀ c : BprCell, m' (c.rename σ τ) = m c) →
        bprStats (bprEpoch sig lr reg s (e.rename σ τ π) m').1 = bprStats (bprEpoch sig lr reg s e m).1) ∧
      ∀ (randItem randItem' randUser randUser' : Nat → Nat → R) (item item' user user' : Option (Nat → Nat → R)),
        (∀ i j, randItem' (τ i) j = randItem i j) → (∀ u j, randUser' (σ u) j = randUser u j) →
        Option.Rel (fun a b => ∀ i j, b (τ i) j = a i j) item item' →
        Option.Rel (fun a b => ∀ u j, b (σ u) j = a u j) user user' →
        ∀ (s : Th → BprScratch R) (epochs : List (BprEpoch Th)) (c : BprCell),
          bprFit sig lr reg verify factors randItem' randUser' matrix' item' user' s (epochs.map (BprEpoch.rename σ τ π))
              (c.rename σ τ) =
            bprFit sig lr reg verify factors randItem randUser matrix item user s epochs c := by
  have hr := bprRows_renamed verify h
  obtain ⟨π, hi, hu⟩ := positions_renamed hr
  have sorted : ∀ (l : List (List Nat)), verify = true → ∀ r ∈ bprRows verify l, r.Pairwise (· ≤ ·) := by
    intro l hv r hrm
    obtain ⟨u, hur⟩ := List.getElem?_of_mem hrm
    obtain ⟨_, _, _, hp⟩ := (bprRows_spec verify l).2 u r hur
    exact hp hv
  refine ⟨π, hi, hu, fun e he => bprEpoch_renamed_valid verify hr (sorted _) (sorted _) hi hu factors e he,
    fun s e m m' hm => congrArg bprStats (exec_renamed sig lr reg σ τ e.schedule _ m m' hm).1, ?_⟩
  intro randItem randItem' randUser randUser' item item' user user' h1 h2 h3 h4 s epochs c
  exact bprEpochs_renamed sig lr reg σ τ π s epochs _ _ (bprInit_renamed factors hr h1 h2 h3 h4) c

/-- Users 0 and 1 exchange their numbers: the stored entries move from positions 0, 1, 2 to 1, 2, 0, and the sample drawn at these
positions trains the renamed rows. -/
example :
    let matrix := [[0, 1], [2]]
    let matrix' := [[2], [0, 1]]
    let run (rows : List (List Nat)) (draws : List (Nat × Nat)) : BprCell → Rat :=
      bprFit (Th := Unit) (fun x => 1 / (2 + x)) 1 (1 / 10) true 1 (fun _ _ => 1) (fun _ _ => 0) rows none none
        (fun _ => ⟨0, 0, 0, 0, 0, 0, 0, 0⟩) [⟨fun _ => draws, (draws.flatMap (bprProg true rows 1)).map fun i => ((), i)⟩]
    run matrix' [(2, 0), (0, 1)] (.user 1 0) = run matrix [(1, 2), (2, 0)] (.user 0 0) ∧
    run matrix [(1, 2), (2, 0)] (.user 0 0) ≠ -1 / 2 ∧
    run matrix' [(2, 0), (0, 1)] (.item 1 1) = run matrix [(1, 2), (2, 0)] (.item 1 1) := by
  decide +kernel

/-! ## LMF -/

theorem foldl_positive_perm {pos pos' : List (Vec f R × R)} (h : pos'.Perm pos) (d : Vec f R) :
    pos'.foldl lmfPositive d = pos.foldl lmfPositive d := by
  refine h.foldl_eq' ?_ _
  intro e _ e' _ r
  funext a; simp only [lmfPositive]; ring

theorem foldl_positiveSig_perm (sigm : R → R) (x : Vec f R) {pos pos' : List (Vec f R × R)} (h : pos'.Perm pos) (d : Vec f R) :
    pos'.foldl (lmfPositiveSig sigm x) d = pos.foldl (lmfPositiveSig sigm x) d := by
  refine h.foldl_eq' ?_ _
  intro e _ e' _ r
  funext a; simp only [lmfPositiveSig]; ring

theorem lmfRow_perm (sigm sqrt : R → R) (eps lr reg : R) {pos pos' : List (Vec f R × R)} (h : pos'.Perm pos) (neg : List (Vec f R))
    (x s : Vec f R) : lmfRow sigm sqrt eps lr reg pos' neg x s = lmfRow sigm sqrt eps lr reg pos neg x s := by
  have he : pos'.isEmpty = pos.isEmpty := by
    have := h.length_eq
    cases pos <;> cases pos' <;> simp_all
  unfold lmfRow lmfDeriv
  rw [he, foldl_positive_perm h, foldl_positiveSig_perm sigm x h]

theorem RenamedMatrix.rows {σ τ : Equiv.Perm Nat} {C C' : SpRows R} (h : RenamedMatrix σ τ C C') :
    RenamedRows σ τ (C.map (List.map Prod.fst)) (C'.map (List.map Prod.fst)) := by
  intro u
  rw [List.getElem?_map, List.getElem?_map]
  have hu := h u
  generalize C[u]? = a at hu ⊢
  generalize C'[σ u]? = b at hu ⊢
  cases hu with
  | none => exact .none
  | some hu => exact .some (by simpa [List.map_map, Function.comp_def] using hu.map Prod.fst)

theorem lmfIndices_flatten (C : SpRows R) : lmfIndices C = (C.map (List.map Prod.fst)).flatten := by
  unfold lmfIndices
  rw [List.map_flatten]

theorem lmfNegRows_renamed {τ π : Equiv.Perm Nat} {ind ind' : List Nat} (hπ : ∀ k, ind'[π k]? = (ind[k]?).map τ)
    {Y Y' : List (Vec f R)} (hY : Renamed τ Y Y') (draws : List Nat) :
    lmfNegRows ind' Y' (draws.map π) = lmfNegRows ind Y draws := by
  unfold lmfNegRows
  rw [List.mapM_map]
  refine mapM_congr' fun d _ => ?_
  rw [Function.comp_apply, hπ d]
  cases ind[d]? with
  | none => rfl
  | some i => simp only [Option.map_some, hY i]

/-- The rows of one side. -/
def Spec.RenamedSide (σ : Equiv.Perm Nat) (s s' : LmfSide f R) : Prop :=
  Renamed σ s.factors s'.factors ∧ Renamed σ s.sums s'.sums

theorem lmfUpdate_renamed (sigm sqrt : R → R) (eps lr reg : R) (negProp : Int) {σ τ π : Equiv.Perm Nat} {C C' : SpRows R}
    (hC : RenamedMatrix σ τ C C') (hπ : ∀ k, (lmfIndices C')[π k]? = ((lmfIndices C)[k]?).map τ) {Y Y' : List (Vec f R)}
    (hY : Renamed τ Y Y') {draws draws' : Nat → Nat → Nat} (hd : ∀ u k, draws' (σ u) k = π (draws u k)) {s s' : LmfSide f R}
    (hs : Spec.RenamedSide σ s s') :
    Agree (Spec.RenamedSide σ) (lmfUpdate sigm sqrt eps lr reg negProp C Y draws s)
      (lmfUpdate sigm sqrt eps lr reg negProp C' Y' draws' s') := by
  unfold lmfUpdate
  have hmap := mapM_renamed hs.1
    (g := fun p => lmfRowAt sigm sqrt eps lr reg negProp C Y draws s.sums p.2 p.1)
    (g' := fun p => lmfRowAt sigm sqrt eps lr reg negProp C' Y' draws' s'.sums p.2 p.1) (by
      intro x u _
      dsimp only [lmfRowAt]
      have hu := hC u
      rw [hs.2 u]
      generalize C[u]? = a at hu ⊢
      generalize C'[σ u]? = b at hu ⊢
      cases hu with
      | none => rfl
      | some hrow =>
        rename_i row row'
        cases s.sums[u]? with
        | none => rfl
        | some q =>
          refine ((rowEntries_renamed _ _ hY hrow).bind fun pos pos' hp => ?_).toOption
          have hdr : lmfRowDraws f negProp row'.length (draws' (σ u)) = (lmfRowDraws f negProp row.length (draws u)).map π := by
            have hl : row'.length = row.length := by simpa using hrow.length_eq
            unfold lmfRowDraws
            rw [hl]
            split
            · rfl
            · simp [hd]
          rw [hdr, lmfNegRows_renamed hπ hY]
          refine (Spec.Agree.refl _).bind fun neg neg' hn => ?_
          subst hn
          exact .ok (lmfRow_perm sigm sqrt eps lr reg hp _ x q))
  have hstrong : ∀ {a b : Except Err (List (Vec f R × Vec f R))}, Agree (Renamed σ) a b →
      (∀ out, a = .ok out → out.length = s.factors.length) → (∀ out, b = .ok out → out.length = s'.factors.length) →
      Agree (fun out out' => Renamed σ out out' ∧ out.length = s.factors.length ∧ out'.length = s'.factors.length) a b := by
    intro a b h h1 h2
    cases h with
    | error => exact .error
    | ok h => exact .ok ⟨h, h1 _ rfl, h2 _ rfl⟩
  refine (hstrong hmap (fun out h => by simpa using mapM_length' h) (fun out h => by simpa using mapM_length' h)).bind
    fun out out' h => ?_
  obtain ⟨ho, hlen, hlen'⟩ := h
  refine .ok ⟨ho.map _, fun u => ?_⟩
  show (out'.map Prod.snd ++ s'.sums.drop s'.factors.length)[σ u]? = (out.map Prod.snd ++ s.sums.drop s.factors.length)[u]?
  rw [List.getElem?_append, List.getElem?_append, List.length_map, List.length_map]
  by_cases hu : u < out.length
  · rw [if_pos hu, if_pos ((ho.lt_iff u).mpr hu)]
    exact (ho.map _) u
  · rw [if_neg hu, if_neg (fun h => hu ((ho.lt_iff u).mp h)), List.getElem?_drop, List.getElem?_drop]
    have h1 : s'.factors.length + (σ u - out'.length) = σ u := by
      have : ¬ σ u < out'.length := fun h => hu ((ho.lt_iff u).mp h)
      omega
    have h2 : s.factors.length + (u - out.length) = u := by omega
    rw [h1, h2]
    exact hs.2 u

/-- The state of the epochs. -/
def Spec.RenamedLmf (σ τ : Equiv.Perm Nat) (st st' : LmfState f R) : Prop :=
  Spec.RenamedSide σ st.user st'.user ∧ Spec.RenamedSide τ st.item st'.item

/-- The draws of the renamed run: for renamed rows, the positions of the renamed entries; `π` for the matrix of the users, `ρ` for its
transpose. -/
def Spec.RenamedDraws (σ τ π ρ : Equiv.Perm Nat) (d d' : LmfDraws) : Prop :=
  (∀ u k, d'.user (σ u) k = π (d.user u k)) ∧ ∀ i k, d'.item (τ i) k = ρ (d.item i k)

theorem lmfEpochs_renamed {factors : Nat} (sigm sqrt : R → R) (eps lr reg : R) (negProp : Int) {σ τ π ρ : Equiv.Perm Nat}
    {C C' Ct Ct' : SpRows R} (hC : RenamedMatrix σ τ C C') (hCt : RenamedMatrix τ σ Ct Ct')
    (hπ : ∀ k, (lmfIndices C')[π k]? = ((lmfIndices C)[k]?).map τ) (hρ : ∀ k, (lmfIndices Ct')[ρ k]? = ((lmfIndices Ct)[k]?).map σ)
    {ds ds' : List LmfDraws} (hds : List.Forall₂ (Spec.RenamedDraws σ τ π ρ) ds ds') :
    ∀ {st st' : LmfState (factors + 2) R}, Spec.RenamedLmf σ τ st st' →
      Agree (Spec.RenamedLmf σ τ) (lmfEpochs sigm sqrt eps lr reg negProp C Ct ds st)
        (lmfEpochs sigm sqrt eps lr reg negProp C' Ct' ds' st') := by
  induction hds with
  | nil => exact fun h => .ok h
  | cons hd _ ih =>
    intro st st' hst
    refine Spec.Agree.bind (r := Spec.RenamedLmf σ τ) ?_ fun a b hab => ih hab
    unfold lmfEpoch
    refine (lmfUpdate_renamed sigm sqrt eps lr reg negProp hC hπ hst.2.1 hd.1 hst.1).bind fun u u' hu => ?_
    refine (lmfUpdate_renamed sigm sqrt eps lr reg negProp hCt hρ (hu.1.map _) hd.2 hst.2).bind fun i i' hi => ?_
    exact .ok ⟨⟨hu.1.map _, hu.2⟩, ⟨hi.1.map _, hi.2⟩⟩

theorem replicate_renamed {α : Type} {σ : Equiv.Perm Nat} {m n : Nat} (h : ∀ u : Nat, σ u < n ↔ u < m) (x : α) :
    Renamed σ (List.replicate m x) (List.replicate n x) := by
  intro u
  simp only [List.getElem?_replicate, h]

theorem lmfInit_renamed {σ : Equiv.Perm Nat} {m n : Nat} (h : ∀ u : Nat, σ u < n ↔ u < m) {rand rand' : Nat → Vec f R}
    (hr : ∀ u, rand' (σ u) = rand u) (one : Fin f) {count count' : Nat → Nat} (hc : ∀ u, count' (σ u) = count u) :
    Renamed σ (lmfInit m rand one count) (lmfInit n rand' one count') := by
  intro u
  unfold lmfInit
  rw [List.getElem?_map, List.getElem?_map]
  by_cases hu : u < m
  · rw [List.getElem?_range hu, List.getElem?_range ((h u).mpr hu)]
    simp only [Option.map_some, hr, hc]
  · rw [List.getElem?_eq_none (by simpa using fun h' => hu ((h u).mp h')), List.getElem?_eq_none (by simpa using hu)]
    rfl

/-- **C67** (renaming, LMF).  Let `C'` be the training matrix with users and items renamed.  Its stored entries are the renamed ones at
permuted positions, `π` by rows and `ρ` by columns; a training run on `C` corresponds to the run on `C'` that draws the permuted
positions for the renamed rows, and that run computes the renamed factors (or both go wrong).  The code draws uniformly over the
positions, so renaming does not change the distribution of the trained model. -/
theorem C67_lmf {factors : Nat} (sigm sqrt : R → R) (eps lr reg : R) (negProp : Int) (cols : Nat) {σ τ : Equiv.Perm Nat}
    (hτ : ∀ i, τ i < cols ↔ i < cols) {C C' : SpRows R} (hC : RenamedMatrix σ τ C C') :
    ∃ π ρ : Equiv.Perm Nat,
      (∀ k, (lmfIndices C')[π k]? = ((lmfIndices C)[k]?).map τ) ∧
      (∀ k, (lmfIndices (transposeRows cols C'))[ρ k]? = ((lmfIndices (transposeRows cols C))[k]?).map σ) ∧
      ∀ (randItem randItem' randUser randUser' : Nat → Vec (factors + 2) R)
        (item item' user user' : Option (List (Vec (factors + 2) R))) (draws draws' : List LmfDraws),
        (∀ i, randItem' (τ i) = randItem i) → (∀ u, randUser' (σ u) = randUser u) →
        Option.Rel (Renamed τ) item item' → Option.Rel (Renamed σ) user user' →
        List.Forall₂ (Spec.RenamedDraws σ τ π ρ) draws draws' →
        Agree (Spec.RenamedLmf σ τ) (lmfFit sigm sqrt eps lr reg negProp cols C randItem randUser item user draws)
          (lmfFit sigm sqrt eps lr reg negProp cols C' randItem' randUser' item' user' draws') := by
  have hCt := transposeRows_renamed hC hτ
  obtain ⟨π, hπ, -⟩ := positions_renamed (RenamedMatrix.rows hC)
  obtain ⟨ρ, hρ, -⟩ := positions_renamed (RenamedMatrix.rows hCt)
  simp only [← lmfIndices_flatten] at hπ hρ
  refine ⟨π, ρ, hπ, hρ, ?_⟩
  intro randItem randItem' randUser randUser' item item' user user' draws draws' hri hru hit hus hds
  have hlt : ∀ u, σ u < C'.length ↔ u < C.length := by
    intro u
    simpa using RenamedRows_lt (RenamedMatrix.rows hC) u
  have hcount : ∀ i, (lmfIndices C').count (τ i) = (lmfIndices C).count i := by
    intro i
    refine count_renamed ?_ i
    rw [lmfIndices_flatten, lmfIndices_flatten, ← cellsOf_snd, ← cellsOf_snd]
    simpa [List.map_map, Function.comp_def] using (cellsOf_renamed (RenamedMatrix.rows hC)).symm.map Prod.snd
  have hlen : ∀ u, (C'[σ u]?.getD []).length = (C[u]?.getD []).length := by
    intro u
    have hu := hC u
    generalize C[u]? = a at hu ⊢
    generalize C'[σ u]? = b at hu ⊢
    cases hu with
    | none => rfl
    | some hu => simpa using hu.length_eq
  unfold lmfFit
  refine lmfEpochs_renamed sigm sqrt eps lr reg negProp hC hCt hπ hρ hds ⟨⟨?_, replicate_renamed hlt _⟩, ⟨?_, replicate_renamed hτ _⟩⟩
  · cases hus with
    | none => exact lmfInit_renamed hlt hru _ hlen
    | some h => exact h
  · cases hit with
    | none => exact lmfInit_renamed hτ hri _ hcount
    | some h => exact h

/-- Two users exchange their numbers (`σ`), with them the position of the entry drawn for the first one; one factor. -/
example :
    let C : SpRows Rat := [[(0, 1)], [(1, 2)]]
    let C' : SpRows Rat := [[(1, 2)], [(0, 1)]]
    let fit (C : SpRows Rat) (u : Nat) (draw : Nat) : Except Err (List (List Rat)) := do
      let st ← lmfFit (factors := 1) (fun x => 1 / (2 + x)) (fun x => x) 1 1 (1 / 2) 1 2 C (fun i => ![i, 1, 2]) (fun _ => ![1, 2, 3])
        none none [⟨fun v _ => if v = u then draw else 1 - draw, fun _ _ => 0⟩]
      pure (st.user.factors.map fun v => List.ofFn v)
    (fit C 0 1).map List.reverse = fit C' 1 0 ∧ (fit C 0 1).toOption ≠ none ∧ fit C 0 1 ≠ fit C' 0 1 := by
  decide +kernel

end Implicit
