import Verif.Lemmas.LoadAny
import Verif.Props.C10
import Verif.Props.C39

/-!
# C76 — files of any origin

`load` never runs code from a file: pickled members are refused.  What it does not do is to look at names, shapes, memory order or
contents.  For files written by `save` this is harmless; for others a model may come out whose methods are shadowed, whose answers
do not follow from its factors, or whose native code leaves its arrays.
-/

set_option linter.unusedSectionVars false

namespace Implicit

open Spec

variable {R : Type}

namespace Spec

/-- `load` can store this member: it is not pickled, no read-only property has its name, and a `dtype` names a data type. -/
def Storable (settable : String → Bool) (dtypeOf : NpVal R → Option String) (kv : String × NpVal R) : Prop :=
  kv.2 ≠ .pickled ∧ settable kv.1 = true ∧ (kv.1 = "dtype" → ∃ d, dtypeOf kv.2 = some d)

/-- The attribute holds what the member says. -/
def HoldsMember (dtypeOf : NpVal R → Option String) (o : Loaded R) (kv : String × NpVal R) : Prop :=
  (kv.1 ≠ "dtype" → o kv.1 = some (.value kv.2)) ∧ ∀ d, kv.1 = "dtype" → dtypeOf kv.2 = some d → o kv.1 = some (.dtype d)

/-- Liking item `i` keeps the scorer inside of its arrays: its row can be read, and the row names existing items. -/
def ReadableRow [LinearOrder R] [Field R] (m : RawCsr R) (i : Nat) : Prop :=
  ∃ es, rawRow m i = .ok es ∧ ∀ x ∈ es, 0 ≤ x.1 ∧ x.1 < m.rows

end Spec

/-! ## Attributes -/

open scoped Classical in
theorem memberValue_cases (dtypeOf : NpVal R → Option String) (name : String) (v : NpVal R) :
    memberValue dtypeOf name v =
      if v = .pickled then .error .valueError
      else if name = "dtype" then (match dtypeOf v with | some d => .ok (.dtype d) | none => .error .typeError)
      else .ok (.value v) := by
  cases v <;> simp [memberValue] <;> rfl

theorem loadMember_spec (settable : String → Bool) (dtypeOf : NpVal R → Option String) (o : Loaded R) (kv : String × NpVal R) :
    (¬ Storable settable dtypeOf kv → ∃ e, loadMember settable dtypeOf o kv = .error e) ∧
    (Storable settable dtypeOf kv → ∃ o', loadMember settable dtypeOf o kv = .ok o' ∧ HoldsMember dtypeOf o' kv ∧
      ∀ k, k ≠ kv.1 → o' k = o k) := by
  classical
  obtain ⟨name, v⟩ := kv
  unfold loadMember
  simp only [memberValue_cases]
  by_cases hp : v = .pickled
  · rw [if_pos hp]
    exact ⟨fun _ => ⟨_, rfl⟩, fun h => absurd hp h.1⟩
  rw [if_neg hp]
  have hfin : ∀ w : FileVal R, ∃ o' : Loaded R, (fun k => if k = name then some w else o k) = o' ∧ o' name = some w ∧
      ∀ k, k ≠ name → o' k = o k := fun w => ⟨_, rfl, if_pos rfl, fun k hk => if_neg hk⟩
  by_cases hd : name = "dtype"
  · rw [if_pos hd]
    cases hv : dtypeOf v with
    | none =>
      refine ⟨fun _ => ⟨_, rfl⟩, fun h => ?_⟩
      obtain ⟨d, hd'⟩ := h.2.2 hd
      rw [hv] at hd'; cases hd'
    | some d =>
      simp only [bind, Except.bind]
      cases hs : settable name with
      | false =>
        refine ⟨fun _ => ⟨_, rfl⟩, fun h => ?_⟩
        have := h.2.1
        rw [hs] at this; cases this
      | true =>
        refine ⟨fun h => absurd ⟨hp, hs, fun _ => ⟨d, hv⟩⟩ h, fun _ => ?_⟩
        obtain ⟨o', e, h1, h2⟩ := hfin (.dtype d)
        refine ⟨o', by rw [if_pos rfl, e], ⟨fun h => absurd hd h, fun d' _ hd' => ?_⟩, h2⟩
        rw [hv] at hd'
        cases hd'
        exact h1
  · rw [if_neg hd]
    simp only [bind, Except.bind]
    cases hs : settable name with
    | false =>
      refine ⟨fun _ => ⟨_, rfl⟩, fun h => ?_⟩
      have := h.2.1
      rw [hs] at this; cases this
    | true =>
      refine ⟨fun h => absurd ⟨hp, hs, fun h => absurd h hd⟩ h, fun _ => ?_⟩
      obtain ⟨o', e, h1, h2⟩ := hfin (.value v)
      exact ⟨o', by rw [if_pos rfl, e], ⟨fun _ => h1, fun _ h => absurd h hd⟩, h2⟩

/-- **What `load` makes of an archive.**  It succeeds exactly if every member can be stored; then every member is the attribute of its
name, and no other attribute differs from those of a new object.  In particular a pickled member, whatever its name, is refused. -/
theorem C76_load (settable : String → Bool) (dtypeOf : NpVal R → Option String) (members : List (String × NpVal R))
    (hnames : (members.map Prod.fst).Nodup) :
    ((∃ e, loadMembers settable dtypeOf members = .error e) ↔ ∃ kv ∈ members, ¬ Storable settable dtypeOf kv) ∧
    ∀ o, loadMembers settable dtypeOf members = .ok o →
      (∀ kv ∈ members, HoldsMember dtypeOf o kv) ∧ ∀ k, k ∉ members.map Prod.fst → o k = none := by
  have key : ∀ (l : List (String × NpVal R)) (o : Loaded R), (l.map Prod.fst).Nodup →
      ((∃ e, l.foldlM (loadMember settable dtypeOf) o = .error e) ↔ ∃ kv ∈ l, ¬ Storable settable dtypeOf kv) ∧
      ∀ o', l.foldlM (loadMember settable dtypeOf) o = .ok o' →
        (∀ kv ∈ l, HoldsMember dtypeOf o' kv) ∧ ∀ k, k ∉ l.map Prod.fst → o' k = o k := by
    intro l
    induction l with
    | nil =>
      intro o _
      refine ⟨⟨fun ⟨e, h⟩ => (by cases h), fun ⟨_, h, _⟩ => absurd h List.not_mem_nil⟩, fun o' h => ?_⟩
      cases h
      exact ⟨fun _ h => absurd h List.not_mem_nil, fun _ _ => rfl⟩
    | cons kv l ih =>
      intro o hnd
      rw [List.map_cons, List.nodup_cons] at hnd
      rw [List.foldlM_cons]
      obtain ⟨hbad, hgood⟩ := loadMember_spec settable dtypeOf o kv
      by_cases hs : Storable settable dtypeOf kv
      · obtain ⟨o1, e1, hh, hk⟩ := hgood hs
        obtain ⟨ih1, ih2⟩ := ih o1 hnd.2
        rw [e1]
        refine ⟨?_, fun o' ho' => ?_⟩
        · change (∃ e, l.foldlM (loadMember settable dtypeOf) o1 = .error e) ↔ _
          rw [ih1]
          constructor
          · rintro ⟨x, hx, h⟩; exact ⟨x, List.mem_cons_of_mem _ hx, h⟩
          · rintro ⟨x, hx, h⟩
            rcases List.mem_cons.mp hx with rfl | hx
            · exact absurd hs h
            · exact ⟨x, hx, h⟩
        · obtain ⟨h1, h2⟩ := ih2 o' ho'
          refine ⟨fun x hx => ?_, fun k hk' => ?_⟩
          · rcases List.mem_cons.mp hx with rfl | hx
            · have := h2 x.1 hnd.1
              unfold HoldsMember
              rw [this]
              exact hh
            · exact h1 x hx
          · rw [List.map_cons, List.mem_cons, not_or] at hk'
            rw [h2 k hk'.2, hk k hk'.1]
      · obtain ⟨e, he⟩ := hbad hs
        rw [he]
        refine ⟨⟨fun _ => ⟨kv, by simp, hs⟩, fun _ => ⟨e, rfl⟩⟩, fun o' h => by cases h⟩
  exact key members _ hnames

example : ∃ o : Loaded Rat, loadMembers (fun k => k ≠ "solver") (fun v => if v = .text "float32" then some "float32" else none)
      [("factors", .int 3), ("dtype", .text "float32")] = .ok o ∧
    o "factors" = some (.value (.int 3)) ∧ o "dtype" = some (.dtype "float32") ∧ o "alpha" = none := ⟨_, rfl, rfl, rfl, rfl⟩

example : loadMembers (R := Rat) (fun k => k ≠ "solver") (fun _ => some "float32") [("factors", .int 3), ("weights", .pickled)] =
    .error .valueError := rfl

/-- **A member with the name of a method.**  The archive loads; the model that comes out cannot be asked. -/
theorem C76_shadowed_method_violated :
    ∃ o : Loaded Rat, loadMembers (fun k => k ≠ "solver") (fun _ => some "float32")
        [("user_factors", .array ⟨[1, 1], "float32", false, [1]⟩), ("recommend", .int 7)] = .ok o ∧
      callMethod o "recommend" = .error .typeError ∧ callMethod o "similar_items" = .ok () := by
  refine ⟨_, rfl, rfl, rfl⟩

/-- An item-item archive given to a matrix factorisation class: accepted, and the model has no factors. -/
theorem C76_item_item_file_violated (settable : String → Bool) (dtypeOf : NpVal R → Option String)
    (hs : ∀ k ∈ ["K", "shape", "data", "indptr", "indices"], settable k = true) (k : Int) (shape data indptr indices : NdArray R) :
    ∃ o, loadMembers settable dtypeOf [("K", .int k), ("shape", .array shape), ("data", .array data), ("indptr", .array indptr),
        ("indices", .array indices)] = .ok o ∧
      o "user_factors" = none ∧ o "item_factors" = none := by
  have hnd : (([("K", .int k), ("shape", .array shape), ("data", .array data), ("indptr", .array indptr),
        ("indices", .array indices)] : List (String × NpVal R)).map Prod.fst).Nodup := by
    simp only [List.map_cons, List.map_nil]; decide
  obtain ⟨h1, h2⟩ := C76_load settable dtypeOf _ hnd
  cases ho : loadMembers settable dtypeOf [("K", .int k), ("shape", .array shape), ("data", .array data),
      ("indptr", .array indptr), ("indices", .array indices)] with
  | ok o => exact ⟨o, rfl, (h2 o ho).2 _ (by simp only [List.map_cons, List.map_nil]; decide),
      (h2 o ho).2 _ (by simp only [List.map_cons, List.map_nil]; decide)⟩
  | error e =>
    exfalso
    obtain ⟨kv, hkv, hn⟩ := h1.mp ⟨e, ho⟩
    simp only [List.mem_cons, List.not_mem_nil, or_false] at hkv
    rcases hkv with rfl | rfl | rfl | rfl | rfl <;>
      exact hn ⟨by simp, hs _ (by simp), fun h => absurd h (by dsimp only; decide)⟩

/-- **Files of another matrix factorisation class.**  Whatever CPU class saved the model and whatever CPU class loads it, the saved
attributes come back - the factors among them - and the others are the defaults of the class that loads. -/
theorem C76_other_class (c : Consts R) (keys : List Attr) (hkeys : keys ∈ [alsKeys, bprKeys, lmfKeys]) (init : PyObj R)
    (hinit : init = alsDefault c ∨ init = bprDefault c ∨ init = lmfDefault c) (o : PyObj R) (ho : MfState keys o) (t : Target)
    (ht : Findable t) (disk : Disk (List (Attr × NpVal R))) :
    ∃ disk' o', mfSave keys o t disk = .ok disk' ∧ mfLoad init t disk' = .ok o' ∧ SameOn keys o o' ∧
      SameOn [.userFactors, .itemFactors] o o' ∧ ∀ k, k ∉ keys → o' k = init k := by
  obtain ⟨d, h1, -, o', h3, h4, h5⟩ := mf_round_trip keys o init ho t ht disk (by
    intro k hk
    simp only [List.mem_cons, List.not_mem_nil, or_false] at hk
    rcases hinit with rfl | rfl | rfl <;> rcases hk with rfl | rfl | rfl <;> rfl)
  refine ⟨d, o', h1, h3, h4, fun k hk => h4 k ?_, h5⟩
  simp only [List.mem_cons, List.not_mem_nil, or_false] at hkeys hk
  rcases hkeys with rfl | rfl | rfl <;> rcases hk with rfl | rfl <;> decide

/-- The class of the file is not checked: a file of the BPR class makes an ALS model with its factors. -/
example : ∃ disk' o', mfSave bprKeys (bprDefault consts0) (.str ['m']) (fun _ => none) = .ok disk' ∧
    mfLoad (alsDefault consts0) (.str ['m']) disk' = .ok o' ∧ o' .alpha = some (.float 1) ∧ o' .learningRate = some (.float (1 / 100)) :=
  ⟨_, _, rfl, rfl, rfl, rfl⟩

/-! ## Caches -/

section

variable [LinearOrder R] [Field R] {f : Nat}

/-- The model that comes out of an archive with these factors and, if it has them, members `_user_norms`, `_item_norms`, `_YtY`, `_XtX`. -/
def loadedModel (m : Factors f R) (userNorms itemNorms : Option (List R)) (YtY XtX : Option (Mat f R)) : MFState f R :=
  ⟨m.user, m.item, userNorms, itemNorms, YtY, XtX⟩

/-- **Only members that `save` writes**: every answer is the one computed from the factors, after any sequence of queries. -/
theorem C76_load_fresh (env : Env f R) (m : Factors f R) (qs : List (Query f R)) :
    (runQueries env (loadedModel m none none none none) qs).1 = qs.map fun q => (runQuery env (freshState m) q).1 :=
  runQueries_fresh qs (coherent_fresh env m)

end

/-- The one number of an answer that is a vector with one component. -/
def numberOf : Except Err (Result 1 Rat) → Option Rat
  | .ok (.vectors [x]) => some (x 0)
  | _ => none

/-- **A planted `_YtY`.**  `load` accepts the member; `recalculate_user` then does not answer from the factors: with the same factors
and the same row the result is 1/101 instead of 1/3. -/
theorem C76_planted_cache_violated :
    let m : Factors 1 Rat := ⟨[fun _ => 1], [fun _ => 1, fun _ => 1]⟩
    let planted := loadedModel m none none (some fun _ _ => 100) none
    let q : Query 1 Rat := .recalculateUser (.one 0) [[(0, 1)]]
    SameFactors planted (freshState m) ∧
    numberOf (runQuery c10Env planted q).1 = some (1 / 101) ∧ numberOf (runQuery c10Env (freshState m) q).1 = some (1 / 3) := by
  refine ⟨⟨rfl, rfl⟩, ?_⟩
  decide +kernel

/-! ## Factor arrays -/

section

variable [LinearOrder R] [Field R]

/-- **C order, as many columns as factors**: the native loop computes what the rows say. -/
theorem C76_native_rows {n : Nat} (hn : 1 ≤ n) (S : Solver n R) (alpha reg : R) (Y : Arr2 R) (hY : Y.Sized) (hc : Y.fortran = false)
    (hcols : Y.cols = n) (userItems : SpRows R) :
    memRecalculate S alpha reg Y userItems =
      leastSquaresNative S (gram (Y.table n)) (applyAlpha alpha userItems) userItems.length (Y.table n) reg := by
  unfold memRecalculate
  rw [hcols, addEye_eq]
  have hG : (fun a b : Fin n => Y.gram a b) = gram (Y.table n) := by
    funext p q; rw [gram_table]
  rw [hG]
  simp only [bind, Except.bind]
  rw [mapM_congr' fun row _ => memLeastSquaresRow_c S hY hc hn hcols.ge (gram (Y.table n)) reg row, mapM_rows _ .undefinedBehaviour]
  unfold leastSquaresNative
  rw [show (applyAlpha alpha userItems).length = userItems.length by
    unfold applyAlpha scaleRows; split <;> simp]
  refine mapM_congr' fun u _ => ?_
  cases (applyAlpha alpha userItems)[u]? <;> rfl

example : let Y : Arr2 Rat := ⟨2, 1, false, [1, 3]⟩
    Y.Sized ∧ (memRecalculate (scalarSolver Rat) 1 1 Y [[(1, 2)], []]).toOption.map (fun l => l.map fun x => x 0) = some [3 / 10, 0] := by
  refine ⟨rfl, ?_⟩
  decide +kernel

/-- **Another number of columns** is refused, unless one of the two numbers is 1. -/
theorem C76_shape_refused {n : Nat} (S : Solver n R) (alpha reg : R) (Y : Arr2 R) (h : Y.cols ≠ n) (h1 : Y.cols ≠ 1) (h2 : n ≠ 1)
    (userItems : SpRows R) : memRecalculate S alpha reg Y userItems = .error .valueError := by
  unfold memRecalculate addEye
  rw [if_neg h, if_neg h1, if_neg h2]
  rfl

example (S : Solver 3 Rat) : memRecalculate S 1 1 ⟨2, 2, false, [1, 2, 3, 4]⟩ [[(0, 1)]] = .error .valueError :=
  C76_shape_refused S 1 1 _ (by decide) (by decide) (by decide) _

/-- **One column, several factors**: numpy adds the `(1, 1)` array to the identity of any size, and the native code reads past the
end of the factor array as soon as the last item occurs. -/
theorem C76_one_column_violated {n : Nat} (hn : 2 ≤ n) (S : Solver n R) (reg : R) (Y : Arr2 R) (hY : Y.Sized) (h1 : Y.cols = 1)
    (hc : Y.fortran = false) (hr : 1 ≤ Y.rows) (c : R) :
    memRecalculate S 1 reg Y [[(Y.rows - 1, c)]] = .error .undefinedBehaviour := by
  have hb : Y.blasRow n (Y.rows - 1) = .error .undefinedBehaviour := by
    unfold Arr2.blasRow
    have : (List.range n).mapM (fun j => Y.read (Y.addr (Y.rows - 1) 0 + j)) = .error .undefinedBehaviour := by
      refine (mapM_error_iff (ε := Err) (e := .undefinedBehaviour) ?_).mpr ?_
      rotate_left
      · refine ⟨1, List.mem_range.mpr (by omega), read_out ?_⟩
        unfold Arr2.addr
        rw [hc, hY, h1]
        simp only [Bool.false_eq_true, if_false]
        omega
      · intro a _ e' he
        unfold Arr2.read at he
        split at he <;> cases he
        rfl
    rw [this]; rfl
  have ha : applyAlpha (1 : R) [[(Y.rows - 1, c)]] = [[(Y.rows - 1, c)]] := by
    unfold applyAlpha; simp
  unfold memRecalculate addEye
  rw [if_neg (by omega), if_pos h1, ha]
  simp only [List.mapM_cons, bind, Except.bind, memLeastSquaresRow, List.isEmpty_cons, Bool.false_eq_true, if_false, memEntries, hb]

example (S : Solver 3 Rat) : memRecalculate S 1 1 ⟨2, 1, false, [1, 2]⟩ [[(1, 1)]] = .error .undefinedBehaviour :=
  C76_one_column_violated (by decide) S 1 ⟨2, 1, false, [1, 2]⟩ rfl rfl rfl (by decide) 1

/-- The first column of an array. -/
def Arr2.firstColumn (Y : Arr2 R) : Arr2 R := ⟨Y.rows, 1, false, (List.range Y.rows).map fun i => Y.entry i 0⟩

/-- **One factor, several columns**: no error; all columns but the first are ignored. -/
theorem C76_one_factor_violated (S : Solver 1 R) (alpha reg : R) (Y : Arr2 R) (hY : Y.Sized) (hc : Y.fortran = false)
    (h2 : 2 ≤ Y.cols) (userItems : SpRows R) :
    memRecalculate S alpha reg Y userItems = memRecalculate S alpha reg Y.firstColumn userItems := by
  have hF : Y.firstColumn.Sized := by unfold Arr2.Sized Arr2.firstColumn; simp
  have hent : ∀ i, i < Y.rows → Y.firstColumn.entry i 0 = Y.entry i 0 := by
    intro i hi
    unfold Arr2.firstColumn
    simp [Arr2.entry, Arr2.addr, List.getD_eq_getElem?_getD, List.getElem?_range hi]
  have htab : Y.firstColumn.table 1 = Y.table 1 := by
    unfold Arr2.table
    refine List.map_congr_left fun i hi => ?_
    funext j
    have hj : (j : Nat) = 0 := by omega
    rw [hj]
    exact hent i (List.mem_range.mp hi)
  have hA : addEye Y.cols 1 Y.gram reg = .ok (regularised (gram (Y.table 1)) reg) := by
    unfold addEye
    rw [if_neg (by omega), if_neg (by omega), if_pos rfl]
    congr 1
    funext a b
    unfold regularised
    rw [gram_table]
    have ha : a = 0 := Fin.fin_one_eq_zero a
    have hb : b = 0 := Fin.fin_one_eq_zero b
    subst ha hb
    simp
  have hB : addEye Y.firstColumn.cols 1 Y.firstColumn.gram reg = .ok (regularised (gram (Y.table 1)) reg) := by
    rw [show Y.firstColumn.cols = 1 from rfl, addEye_eq, ← htab]
    congr 1
    congr 1
    funext p q
    rw [gram_table]
  unfold memRecalculate
  rw [hA, hB]
  simp only [bind, Except.bind]
  refine mapM_congr' fun row _ => ?_
  rw [memLeastSquaresRow_c S hY hc le_rfl (by omega), memLeastSquaresRow_c S hF rfl le_rfl le_rfl, htab]

example : (memRecalculate (scalarSolver Rat) 1 1 ⟨2, 2, false, [1, 50, 3, 70]⟩ [[(1, 2)]]).toOption.map (fun l => l.map fun x => x 0) =
    some [3 / 10] := by decide +kernel

/-- **Fortran order** never leaves the array ... -/
theorem C76_fortran_in_bounds {n : Nat} (Y : Arr2 R) (hY : Y.Sized) (hcols : Y.cols = n) (row : List (Nat × R))
    (hrow : ∀ e ∈ row, e.1 < Y.rows) : ∃ es, memEntries Y n row = .ok es := by
  induction row with
  | nil => exact ⟨[], rfl⟩
  | cons e row ih =>
    obtain ⟨es, he⟩ := ih fun x hx => hrow x (List.mem_cons_of_mem _ hx)
    obtain ⟨i, c⟩ := e
    have hi : i < Y.rows := hrow (i, c) (by simp)
    unfold memEntries
    rw [blasRow_ok hY hi hcols.ge, indexRow_ok hY hi hcols.ge, he]
    exact ⟨_, rfl⟩

example : ∃ es, memEntries (⟨2, 3, true, [1, 2, 3, 4, 5, 6]⟩ : Arr2 Rat) 3 [(1, 2)] = .ok es :=
  C76_fortran_in_bounds (⟨2, 3, true, [1, 2, 3, 4, 5, 6]⟩ : Arr2 Rat) (by rfl) rfl [(1, 2)] (by simp)

end

/-- ... **but reads other factors than those of the items**: two arrays with the same elements, one in C and one in Fortran order; the
same call, two results.  Every solver. -/
theorem C76_fortran_violated (S : Solver 2 Rat) :
    let Yc : Arr2 Rat := ⟨2, 2, false, [1, 2, 3, 4]⟩
    let Yf : Arr2 Rat := ⟨2, 2, true, [1, 3, 2, 4]⟩
    Yc.table 2 = Yf.table 2 ∧
    ∃ x y, memRecalculate S 1 1 Yc [[(0, 1)]] = .ok [x] ∧ memRecalculate S 1 1 Yf [[(0, 1)]] = .ok [y] ∧ x ≠ y := by
  intro Yc Yf
  have htab : Yc.table 2 = Yf.table 2 := by decide +kernel
  refine ⟨htab, ?_⟩
  have hpos : PosDef (regularised (gram (Yc.table 2)) 1) := by
    have := linearEquation_posDef (Yc.table 2) [] (by simp) (by simp) (reg := 1) one_pos
    exact this
  have hgram : ∀ Y : Arr2 Rat, Y.cols = 2 → Y.table 2 = Yc.table 2 →
      addEye Y.cols 2 Y.gram 1 = .ok (regularised (gram (Yc.table 2)) 1) := by
    intro Y hc ht
    rw [hc, addEye_eq, ← ht]
    congr 1
    congr 1
    funext p q
    rw [gram_table]
  have hrun : ∀ (Y : Arr2 Rat) (w y : Vec 2 Rat), Y.cols = 2 → Y.table 2 = Yc.table 2 → Y.blasRow 2 0 = .ok w → Y.indexRow 2 0 = .ok y →
      ∃ x, memRecalculate S 1 1 Y [[(0, 1)]] = .ok [x] ∧ mulVec (regularised (gram (Yc.table 2)) 1) x = w := by
    intro Y w y hc ht hw hy
    obtain ⟨x, hx, hm⟩ := S.spec (regularised (gram (Yc.table 2)) 1) w hpos
    refine ⟨x, ?_, hm⟩
    have hAb : [(w, y, (1 : Rat))].foldl memAccumulate (regularised (gram (Yc.table 2)) 1, fun _ => 0) =
        (regularised (gram (Yc.table 2)) 1, w) := by
      simp [memAccumulate]
    unfold memRecalculate
    rw [hgram Y hc ht, show applyAlpha (1 : Rat) [[(0, 1)]] = [[(0, 1)]] by unfold applyAlpha; simp]
    simp only [bind, Except.bind, List.mapM_cons, List.mapM_nil, memLeastSquaresRow, List.isEmpty_cons, Bool.false_eq_true, if_false,
      memEntries, hw, hy, pure, Except.pure, hAb, hx]
  obtain ⟨x, hx, hxm⟩ := hrun Yc _ _ rfl rfl (blasRow_ok (by rfl) (by decide) (by decide)) (indexRow_ok (by rfl) (by decide) (by decide))
  obtain ⟨y, hy, hym⟩ := hrun Yf _ _ rfl htab.symm (blasRow_ok (by rfl) (by decide) (by decide)) (indexRow_ok (by rfl) (by decide) (by decide))
  refine ⟨x, y, hx, hy, fun h => ?_⟩
  rw [h, hym] at hxm
  have := congrFun hxm 1
  revert this
  decide +kernel

/-! ## Similarity matrices -/

section

variable [LinearOrder R] [Field R]

/-- **Arrays of a square matrix**: loading them gives the model that `fit` left, with the same answers. -/
theorem C76_similarity (H : HeapImpl (R × Nat) pairLt) (C : SpRows R) (row : List (Nat × R)) (N : Nat) (filterLiked : Bool) :
    loadThenRecommend H (rawOf C.length C) row N filterLiked =
      (scorerRecommend H C (Accum.new C.length) row N filterLiked).map Prod.fst := by
  unfold loadThenRecommend
  rw [csrCheck_rawOf]
  simp only [bind, Except.bind]
  rw [rawScorer_rawOf]
  rw [show (rawOf C.length C).rows = C.length from rfl]
  cases scorerRecommend H C (Accum.new C.length) row N filterLiked <;> rfl

example : loadThenRecommend (insertionHeap (R := Rat)) (rawOf 2 [[(0, 4), (1, 2)], [(0, 2), (1, 5)]]) [(0, 3)] 2 false = .ok [(0, 12), (1, 6)] := by
  decide +kernel

/-- **Arrays that scipy refuses**: `load` raises `ValueError` exactly if there is not one pointer more than rows, the first is not 0,
there are not as many values as indices, or the last pointer is beyond them; otherwise the pointers stay and the arrays are cut off. -/
theorem C76_arrays_refused (m : RawCsr R) :
    (csrCheck m = .error .valueError ↔ m.indptr.length ≠ m.rows + 1 ∨ m.indptr[0]? ≠ some 0 ∨ m.indices.length ≠ m.data.length ∨
      ∃ z, m.indptr.getLast? = some z ∧ (m.indices.length : Int) < z) ∧
    (∀ m', csrCheck m = .ok m' → m'.rows = m.rows ∧ m'.indptr = m.indptr ∧ m'.indices <+: m.indices ∧ m'.data <+: m.data ∧
      m'.indices.length = m'.data.length ∧ ∀ z : Nat, m.indptr.getLast? = some (z : Int) → m'.indices.length = z) ∧
    ∀ (H : HeapImpl (R × Nat) pairLt) (row : List (Nat × R)) (N : Nat) (filterLiked : Bool),
      csrCheck m = .error .valueError → loadThenRecommend H m row N filterLiked = .error .valueError := by
  refine ⟨?_, ?_, ?_⟩
  · unfold csrCheck
    rw [← List.head?_eq_getElem?]
    by_cases h1 : m.indptr.length ≠ m.rows + 1
    · simp [h1]
    by_cases h2 : m.indptr.head? ≠ some 0
    · simp [h2]
    by_cases h3 : m.indices.length ≠ m.data.length
    · simp [h3]
    rw [if_neg h1, if_neg h2, if_neg h3]
    have hne : m.indptr ≠ [] := by
      intro h0; rw [h0] at h1; simp at h1
    have hz := List.getLast?_eq_some_getLast hne
    rw [hz]
    simp only [h1, h2, h3, false_or, Option.getD_some]
    by_cases h4 : (m.indices.length : Int) < m.indptr.getLast hne
    · simp [h4]
    · simp [h4]
  · intro m' h
    unfold csrCheck at h
    by_cases h1 : m.indptr.length ≠ m.rows + 1
    · rw [if_pos h1] at h; cases h
    by_cases h2 : m.indptr.head? ≠ some 0
    · rw [if_neg h1, if_pos h2] at h; cases h
    by_cases h3 : m.indices.length ≠ m.data.length
    · rw [if_neg h1, if_neg h2, if_pos h3] at h; cases h
    rw [if_neg h1, if_neg h2, if_neg h3] at h
    by_cases h4 : (m.indices.length : Int) < m.indptr.getLast?.getD 0
    · simp only [h4, if_true] at h; cases h
    simp only [h4, if_false] at h
    cases h
    refine ⟨rfl, rfl, List.take_prefix _ _, List.take_prefix _ _, ?_, fun z hz => ?_⟩
    · rw [List.length_take, List.length_take, not_ne_iff.mp h3]
    · rw [hz] at h4 ⊢
      simp only [Option.getD_some, not_lt] at h4 ⊢
      rw [if_pos (by omega), Int.toNat_natCast, List.length_take]
      omega
  · intro H row N fl h
    unfold loadThenRecommend
    rw [h]
    rfl

example : loadThenRecommend (insertionHeap (R := Rat)) ⟨2, 2, [0, 1, 9], [1], [7]⟩ [(0, 3)] 2 false = .error .valueError ∧
    loadThenRecommend (insertionHeap (R := Rat)) ⟨2, 2, [0, 1, 1, 1], [1], [7]⟩ [(0, 3)] 2 false = .error .valueError := by
  decide +kernel

theorem add_ok {a b : Accum R} {n : Nat} (ha : a.sums.length = n ∧ a.next.length = n) {i : Nat} {v : R} (h : a.add i v = .ok b) :
    i < n ∧ b.sums.length = n ∧ b.next.length = n := by
  unfold Accum.add at h
  split at h
  · rename_i s nx hs _
    have hi := (List.getElem?_eq_some_iff.mp hs).1
    split at h <;> cases h <;> simp_all
  · cases h

theorem addInt_fold {n : Nat} {w : R} : ∀ (es : List (Int × R)) {a : Accum R}, a.sums.length = n ∧ a.next.length = n →
    (∀ e, es.foldlM (fun (a : Accum R) x => a.addInt x.1 (x.2 * w)) a = .error e → e = .undefinedBehaviour) ∧
    ∀ b, es.foldlM (fun (a : Accum R) x => a.addInt x.1 (x.2 * w)) a = .ok b →
      (∀ x ∈ es, 0 ≤ x.1 ∧ x.1 < n) ∧ b.sums.length = n ∧ b.next.length = n
  | [], a, ha => by
    refine ⟨fun e h => (by cases h), fun b h => ?_⟩
    cases h
    exact ⟨fun _ h => absurd h List.not_mem_nil, ha⟩
  | (.negSucc k, v) :: es, a, ha => by
    rw [List.foldlM_cons]
    exact ⟨fun e h => by cases h; rfl, fun b h => by cases h⟩
  | (.ofNat k, v) :: es, a, ha => by
    rw [List.foldlM_cons]
    change (∀ e, (a.add k (v * w) >>= fun b => es.foldlM _ b) = .error e → _) ∧ ∀ b, (a.add k (v * w) >>= fun b => es.foldlM _ b) = .ok b → _
    cases hb : a.add k (v * w) with
    | error e' => exact ⟨fun e h => by cases h; exact add_error hb, fun b h => by cases h⟩
    | ok b =>
      obtain ⟨hk, hl⟩ := add_ok ha hb
      obtain ⟨h1, h2⟩ := addInt_fold (n := n) (w := w) es hl
      refine ⟨h1, fun c hc => ?_⟩
      obtain ⟨h3, h4⟩ := h2 c hc
      refine ⟨fun x hx => ?_, h4⟩
      rcases List.mem_cons.mp hx with rfl | hx
      · exact ⟨Int.natCast_nonneg k, Int.ofNat_lt.mpr hk⟩
      · exact h3 x hx

theorem rawEntry_error {m : RawCsr R} {k : Int} {e : Err} (h : rawEntry m k = .error e) : e = .undefinedBehaviour := by
  unfold rawEntry at h
  split at h
  · cases h; rfl
  · split at h <;> cases h
    rfl

theorem rawRow_error {m : RawCsr R} {i : Nat} {e : Err} (h : rawRow m i = .error e) : e = .undefinedBehaviour := by
  unfold rawRow at h
  split at h
  · by_contra hn
    rename_i a b _ _
    have : ∀ l : List Nat, ∀ e', l.mapM (fun (t : Nat) => rawEntry m (a + (t : Int))) = .error e' → e' = .undefinedBehaviour := by
      intro l
      induction l with
      | nil => intro e' h; cases h
      | cons x l ih =>
        intro e' h
        rw [List.mapM_cons] at h
        cases hx : rawEntry m (a + (x : Int)) with
        | error e2 => rw [hx] at h; cases h; exact rawEntry_error hx
        | ok y =>
          rw [hx] at h
          cases hl : l.mapM (fun (t : Nat) => rawEntry m (a + (t : Int))) with
          | error e2 => rw [hl] at h; cases h; exact ih _ hl
          | ok ys => rw [hl] at h; cases h
    exact hn (this _ _ h)
  · cases h; rfl

theorem rawAdds_spec (m : RawCsr R) : ∀ (row : List (Nat × R)) {a : Accum R}, a.sums.length = m.rows ∧ a.next.length = m.rows →
    (∀ e, rawAdds m a row = .error e → e = .undefinedBehaviour) ∧
    ∀ b, rawAdds m a row = .ok b → ∀ e ∈ row, ReadableRow m e.1
  | [], a, _ => ⟨fun e h => (by cases h), fun _ _ _ h => absurd h List.not_mem_nil⟩
  | e :: row, a, ha => by
    unfold rawAdds
    cases hr : rawRow m e.1 with
    | error e' => exact ⟨fun e h => by cases h; exact rawRow_error hr, fun b h => by cases h⟩
    | ok es =>
      simp only [bind, Except.bind]
      obtain ⟨h1, h2⟩ := addInt_fold (n := m.rows) (w := e.2) es ha
      cases hf : es.foldlM (fun (a : Accum R) x => a.addInt x.1 (x.2 * e.2)) a with
      | error e' => exact ⟨fun e h => by cases h; exact h1 _ hf, fun b h => by cases h⟩
      | ok b =>
        obtain ⟨h3, h4⟩ := h2 b hf
        obtain ⟨h5, h6⟩ := rawAdds_spec m row h4
        refine ⟨h5, fun c hc x hx => ?_⟩
        rcases List.mem_cons.mp hx with rfl | hx
        · exact ⟨es, hr, h3⟩
        · exact h6 c hc x hx

/-- The rows that the scorer finds in the arrays; empty where it would leave them. -/
noncomputable def rowsFound (m : RawCsr R) : SpRows R :=
  open scoped Classical in
  (List.range m.rows).map fun i =>
    match rawRow m i with
    | .ok es => if ∀ x ∈ es, 0 ≤ x.1 ∧ x.1 < m.rows then es.map fun x => (x.1.toNat, x.2) else []
    | .error _ => []

theorem rowsFound_square (m : RawCsr R) : SquareRows (rowsFound m) := by
  intro r hr e he
  have hl : (rowsFound m).length = m.rows := by unfold rowsFound; simp
  rw [hl]
  unfold rowsFound at hr
  obtain ⟨i, -, rfl⟩ := List.mem_map.mp hr
  revert he
  cases rawRow m i with
  | error e' => intro he; exact absurd he List.not_mem_nil
  | ok es =>
    dsimp only
    split
    · rename_i h
      intro he
      obtain ⟨x, hx, rfl⟩ := List.mem_map.mp he
      have := h x hx
      simp only
      omega
    · intro he; exact absurd he List.not_mem_nil

theorem rowsFound_get {m : RawCsr R} {i : Nat} (hi : i < m.rows) {es : List (Int × R)} (he : rawRow m i = .ok es)
    (hb : ∀ x ∈ es, 0 ≤ x.1 ∧ x.1 < m.rows) : (rowsFound m)[i]? = some (es.map fun x => (x.1.toNat, x.2)) := by
  unfold rowsFound
  rw [List.getElem?_map, List.getElem?_range hi, Option.map_some, he]
  simp only
  rw [if_pos hb]

theorem rawAdds_found {m : RawCsr R} (hptr : m.indptr.length = m.rows + 1) : ∀ (row : List (Nat × R)) (a : Accum R),
    (∀ e ∈ row, ReadableRow m e.1) → rawAdds m a row = (productAdds (rowsFound m) row).bind fun l => a.addAll l := by
  intro row a h
  induction row generalizing a with
  | nil => rfl
  | cons e row ih =>
    obtain ⟨es, he, hb⟩ := h e (by simp)
    have hi : e.1 < m.rows := by
      by_contra hn
      unfold rawRow at he
      rw [List.getElem?_eq_none (l := m.indptr) (i := e.1 + 1) (by omega)] at he
      split at he
      · rename_i h' ; cases h'
      · cases he
    have ih := fun a => ih a fun x hx => h x (List.mem_cons_of_mem _ hx)
    have hes : es = (es.map fun x => (x.1.toNat, x.2)).map fun e => ((e.1 : Int), e.2) := by
      rw [List.map_map]
      conv_lhs => rw [← List.map_id es]
      refine List.map_congr_left fun x hx => ?_
      have := hb x hx
      simp only [Function.comp, id]
      rw [Int.toNat_of_nonneg this.1]
    unfold rawAdds productAdds
    rw [he, rowsFound_get hi he hb]
    simp only [bind, Except.bind, pure, Except.pure]
    rw [hes, foldlM_addInt, ← hes]
    cases hb : a.addAll ((es.map fun x => (x.1.toNat, x.2)).map fun x => (x.1, x.2 * e.2)) with
    | error e' =>
      have := addAll_error hb
      subst this
      cases hp : productAdds (rowsFound m) row with
      | error e2 => rw [productAdds_error hp]
      | ok l => dsimp only; rw [addAll_append, hb]; rfl
    | ok b =>
      dsimp only
      rw [ih b]
      cases hp : productAdds (rowsFound m) row with
      | error e2 => rfl
      | ok l => simp only [Except.bind]; rw [addAll_append, hb]; rfl

/-- **Which arrays are safe.**  After `load`, `recommend` answers - with a ranking by the rows of the arrays - exactly if every liked
item has a row that can be read and that names existing items.  Otherwise the native code leaves its arrays. -/
theorem C76_similarity_safe (H : HeapImpl (R × Nat) pairLt) (m : RawCsr R) (hptr : m.indptr.length = m.rows + 1)
    (row : List (Nat × R)) (N : Nat) (hN : 1 ≤ N) (filterLiked : Bool) :
    ((∀ e ∈ row, ReadableRow m e.1) → ∃ out, rawScorer H m (Accum.new m.rows) row N filterLiked = .ok (out, Accum.new m.rows) ∧
      IsRanking N (Reachable (rowsFound m) row) (fun j => some (knnScore (rowsFound m) row filterLiked j)) out) ∧
    ((∃ e ∈ row, ¬ ReadableRow m e.1) → rawScorer H m (Accum.new m.rows) row N filterLiked = .error .undefinedBehaviour) := by
  have hl : (rowsFound m).length = m.rows := by unfold rowsFound; simp
  constructor
  · intro h
    have hrow : ∀ e ∈ row, e.1 < (rowsFound m).length := by
      intro e he
      rw [hl]
      obtain ⟨es, hes, -⟩ := h e he
      by_contra hn
      unfold rawRow at hes
      rw [List.getElem?_eq_none (l := m.indptr) (i := e.1 + 1) (by omega)] at hes
      split at hes
      · rename_i h'; cases h'
      · cases hes
    obtain ⟨out, e, hr⟩ := scorer_ok H (rowsFound m) (rowsFound_square m) row hrow N hN filterLiked
    refine ⟨out, ?_, hr⟩
    rw [hl] at e
    rw [← e]
    unfold rawScorer scorerRecommend
    rw [rawAdds_found hptr row _ h]
    cases productAdds (rowsFound m) row <;> rfl
  · rintro ⟨e, he, hn⟩
    obtain ⟨h1, h2⟩ := rawAdds_spec m row (a := Accum.new m.rows) (by simp [Accum.new])
    unfold rawScorer
    cases hb : rawAdds m (Accum.new m.rows) row with
    | error e' => rw [h1 _ hb]; rfl
    | ok b => exact absurd (h2 b hb e he) hn

/-- Pointers that go down, and a row that begins behind the end: the rows of the other items stay usable. -/
example : let m : RawCsr Rat := ⟨3, 3, [0, 2, 1, 1], [0, 2], [1, 5]⟩
    csrCheck m = .ok ⟨3, 3, [0, 2, 1, 1], [0], [1]⟩ ∧ rawRow m 0 = .ok [(0, 1), (2, 5)] ∧ rawRow m 1 = .ok [] ∧
    rawRow (⟨3, 3, [0, 2, 1, 1], [0], [1]⟩ : RawCsr Rat) 0 = .error .undefinedBehaviour := by decide +kernel

/-- **An archive that scipy accepts and that breaks the native code**: the index 5 in a matrix for two items, or a negative one. -/
theorem C76_crafted_similarity_violated (H : HeapImpl (R × Nat) pairLt) (N : Nat) (hN : 1 ≤ N) (filterLiked : Bool) (j : Int)
    (hj : j < 0 ∨ 2 ≤ j) (v w : R) :
    let m : RawCsr R := ⟨2, 2, [0, 1, 1], [j], [v]⟩
    csrCheck m = .ok m ∧ loadThenRecommend H m [(0, w)] N filterLiked = .error .undefinedBehaviour := by
  intro m
  have hc : csrCheck m = .ok m := by simp [csrCheck, m]
  refine ⟨hc, ?_⟩
  unfold loadThenRecommend
  rw [hc]
  have hr : rawRow m 0 = .ok [(j, v)] := rfl
  have := (C76_similarity_safe H m rfl [(0, w)] N hN filterLiked).2 ⟨(0, w), by simp, by
    rintro ⟨es, hes, hb⟩
    rw [hr] at hes
    cases hes
    have := hb (j, v) (by simp)
    simp only [m] at this
    omega⟩
  change (rawScorer H m (Accum.new m.rows) [(0, w)] N filterLiked >>= _) = _
  rw [this]
  rfl

example : loadThenRecommend (insertionHeap (R := Rat)) ⟨2, 2, [0, 1, 1], [1], [7]⟩ [(0, 3)] 2 false = .ok [(1, 21)] := by decide +kernel

/-- **A row for more items than the model has**: no file needed.  `recommend` does not compare the columns of `user_items` with the
similarity matrix; liking an item beyond it reads `indptr` out of bounds. -/
theorem C76_unknown_item_violated (H : HeapImpl (R × Nat) pairLt) (C : SpRows R) (a : Accum R) (i : Nat) (hi : C.length ≤ i) (w : R)
    (row : List (Nat × R)) (N : Nat) (filterLiked : Bool) :
    scorerRecommend H C a ((i, w) :: row) N filterLiked = .error .undefinedBehaviour := by
  unfold scorerRecommend productAdds
  rw [List.getElem?_eq_none (l := C) (i := i) hi]
  rfl

end

end Implicit
