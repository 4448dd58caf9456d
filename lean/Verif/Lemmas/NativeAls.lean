import Verif.Model.NativeAls
import Verif.Lemmas.ALS
import Verif.Lemmas.Csr
/-! # Flat arrays -/

set_option linter.unusedSectionVars false

namespace Implicit

variable {R : Type} [LinearOrder R] [Field R] {f : Nat}

/-- Rows in memory, one after the other. -/
def flat (V : List (Vec f R)) : Buf R := V.flatMap fun v => List.ofFn fun j => some (v j)

/-- The values of the rows. -/
def flatValues (V : List (Vec f R)) : List R := V.flatMap fun v => List.ofFn v

omit [LinearOrder R] [Field R] in
theorem flat_eq_map (V : List (Vec f R)) : flat V = (flatValues V).map some := by
  unfold flat flatValues
  rw [List.map_flatMap]
  refine List.flatMap_congr fun v _ => ?_
  rw [List.map_ofFn]
  rfl

omit [LinearOrder R] [Field R] in
theorem flatValues_length (V : List (Vec f R)) : (flatValues V).length = V.length * f := by
  unfold flatValues
  induction V with
  | nil => simp
  | cons v V ih =>
    rw [List.flatMap_cons, List.length_append, ih, List.length_ofFn, List.length_cons]
    ring

omit [LinearOrder R] [Field R] in
theorem flat_length (V : List (Vec f R)) : (flat V).length = V.length * f := by
  rw [flat_eq_map, List.length_map, flatValues_length]

omit [LinearOrder R] [Field R] in
theorem flat_append (V W : List (Vec f R)) : flat (V ++ W) = flat V ++ flat W := by
  unfold flat
  rw [List.flatMap_append]

omit [LinearOrder R] [Field R] in
theorem flat_single (v : Vec f R) : flat [v] = (List.ofFn v).map some := by
  unfold flat
  rw [List.flatMap_cons, List.flatMap_nil, List.append_nil, List.map_ofFn]
  rfl

omit [LinearOrder R] [Field R] in
theorem bufRead_mid (pre post : Buf R) (vs : List R) : bufRead (pre ++ vs.map some ++ post) pre.length vs.length = .ok vs := by
  unfold bufRead
  rw [if_pos (by simp), List.append_assoc, List.drop_left, List.take_left' (by simp)]
  induction vs with
  | nil => rfl
  | cons v vs ih => rw [List.map_cons, List.mapM_cons, ih]; rfl

omit [LinearOrder R] [Field R] in
theorem bufWrite_mid (pre mid post : Buf R) (vs : List R) (h : vs.length = mid.length) :
    bufWrite (pre ++ mid ++ post) pre.length vs = .ok (pre ++ vs.map some ++ post) := by
  unfold bufWrite
  have t1 : (pre ++ mid ++ post).take pre.length = pre := by simp
  have t2 : (pre ++ mid ++ post).drop (pre.length + vs.length) = post := List.drop_left' (by simp [h])
  rw [if_pos (by simp [h]), t1, t2]

omit [LinearOrder R] [Field R] in
theorem flat_split {V : List (Vec f R)} {i : Nat} {v : Vec f R} (h : V[i]? = some v) :
    flat V = flat (V.take i) ++ (List.ofFn v).map some ++ flat (V.drop (i + 1)) ∧ (flat (V.take i)).length = i * f := by
  obtain ⟨hi, hv⟩ := List.getElem?_eq_some_iff.mp h
  constructor
  · conv_lhs => rw [← List.take_append_drop i V, List.drop_eq_getElem_cons hi, hv, ← List.singleton_append, flat_append, flat_append,
      flat_single, ← List.append_assoc]
  · rw [flat_length, List.length_take, Nat.min_eq_left hi.le]

omit [LinearOrder R] [Field R] in
/-- Reading a row. -/
theorem bufRead_flat {V : List (Vec f R)} {i : Nat} {v : Vec f R} (h : V[i]? = some v) :
    bufRead (flat V) (i * f) f = .ok (List.ofFn v) := by
  obtain ⟨e, hl⟩ := flat_split h
  have := bufRead_mid (flat (V.take i)) (flat (V.drop (i + 1))) (List.ofFn v)
  rw [hl, List.length_ofFn, ← e] at this
  exact this

omit [LinearOrder R] [Field R] in
/-- Reading one number of a row. -/
theorem bufRead_flat_cell {V : List (Vec f R)} {i : Nat} {v : Vec f R} (h : V[i]? = some v) (j : Fin f) :
    bufRead (flat V) (i * f + j) 1 = .ok [v j] := by
  obtain ⟨e, hl⟩ := flat_split h
  have hs : List.ofFn v = (List.ofFn v).take j ++ [v j] ++ (List.ofFn v).drop (j + 1) := by
    conv_lhs => rw [← List.take_append_drop j (List.ofFn v), List.drop_eq_getElem_cons (by simp)]
    simp
  rw [hs, List.map_append, List.map_append] at e
  have := bufRead_mid (flat (V.take i) ++ ((List.ofFn v).take j).map some)
    (((List.ofFn v).drop (j + 1)).map some ++ flat (V.drop (i + 1))) [v j]
  rw [List.length_append, hl, List.length_map, List.length_take, List.length_ofFn, Nat.min_eq_left j.2.le] at this
  rw [e]
  simpa [List.append_assoc] using this

omit [LinearOrder R] [Field R] in
/-- Writing a row. -/
theorem bufWrite_flat {V : List (Vec f R)} {i : Nat} (h : i < V.length) (w : Vec f R) :
    bufWrite (flat V) (i * f) (List.ofFn w) = .ok (flat (V.set i w)) := by
  obtain ⟨e, hl⟩ := flat_split (List.getElem?_eq_getElem h)
  have hw := bufWrite_mid (flat (V.take i)) ((List.ofFn V[i]).map some) (flat (V.drop (i + 1))) (List.ofFn w) (by simp)
  rw [hl, ← e] at hw
  rw [hw, List.set_eq_take_append_cons_drop, if_pos h, ← List.singleton_append, flat_append, flat_append, flat_single,
    List.append_assoc]

omit [LinearOrder R] [Field R] in
theorem bufWrite_new {b : Buf R} {vs : List R} (h : b.length = vs.length) : bufWrite b 0 vs = .ok (vs.map some) := by
  have := bufWrite_mid [] b [] vs h.symm
  simpa using this

omit [LinearOrder R] [Field R] in
theorem bufRead_all (vs : List R) : bufRead (vs.map some) 0 vs.length = .ok vs := by
  have := bufRead_mid [] [] vs
  simpa using this

/-- A buffer that holds a vector. -/
def vecBuf (v : Vec f R) : Buf R := (List.ofFn v).map some

omit [LinearOrder R] [Field R] in
theorem vecBuf_length (v : Vec f R) : (vecBuf v).length = f := by simp [vecBuf]

omit [LinearOrder R] [Field R] in
theorem bufRead_vec (v : Vec f R) : bufRead (vecBuf v) 0 f = .ok (List.ofFn v) := by
  have := bufRead_all (List.ofFn v)
  rw [List.length_ofFn] at this
  exact this

omit [LinearOrder R] [Field R] in
theorem bufWrite_vec {b : Buf R} (h : b.length = f) (v : Vec f R) : bufWrite b 0 (List.ofFn v) = .ok (vecBuf v) :=
  bufWrite_new (by simpa using h)

/-! ## BLAS on vectors -/

theorem zipWith_ofFn {α β γ : Type} (g : α → β → γ) (x : Fin f → α) (y : Fin f → β) :
    List.zipWith g (List.ofFn x) (List.ofFn y) = List.ofFn fun j => g (x j) (y j) := by
  refine List.ext_getElem (by simp) fun i h1 h2 => ?_
  simp

theorem blasDot_ok {x y : Buf R} {ox oy : Nat} {v w : Vec f R} (hx : bufRead x ox f = .ok (List.ofFn v))
    (hy : bufRead y oy f = .ok (List.ofFn w)) : blasDot f x ox y oy = .ok (dot v w) := by
  unfold blasDot
  rw [hx, hy]
  simp only [bind, Except.bind, pure, Except.pure]
  rw [zipWith_ofFn, List.sum_ofFn]
  rfl

theorem blasAxpy_ok {x y : Buf R} {ox oy : Nat} {v w : Vec f R} (t : R) (hx : bufRead x ox f = .ok (List.ofFn v))
    (hy : bufRead y oy f = .ok (List.ofFn w)) : blasAxpy f t x ox y oy = bufWrite y oy (List.ofFn (axpy t v w)) := by
  unfold blasAxpy
  rw [hx, hy]
  simp only [bind, Except.bind]
  rw [zipWith_ofFn]
  rfl

theorem blasScal_ok {x : Buf R} {ox : Nat} {v : Vec f R} (t : R) (hx : bufRead x ox f = .ok (List.ofFn v)) :
    blasScal f t x ox = bufWrite x ox (List.ofFn fun j => t * v j) := by
  unfold blasScal
  rw [hx]
  simp only [bind, Except.bind]
  rw [List.map_ofFn]
  rfl

/-- A square matrix in memory, row after row. -/
def matBuf (G : Mat f R) : Buf R := flat (List.ofFn G)

omit [LinearOrder R] [Field R] in
theorem matBuf_length (G : Mat f R) : (matBuf G).length = f * f := by simp [matBuf, flat_length]

omit [LinearOrder R] [Field R] in
theorem bufRead_mat (G : Mat f R) : bufRead (matBuf G) 0 (f * f) = .ok (flatValues (List.ofFn G)) := by
  unfold matBuf
  rw [flat_eq_map]
  have := bufRead_all (flatValues (List.ofFn G))
  rw [flatValues_length, List.length_ofFn] at this
  exact this

omit [LinearOrder R] in
theorem flatValues_get {V : List (Vec f R)} {i : Nat} {v : Vec f R} (h : V[i]? = some v) (j : Fin f) :
    (flatValues V).getD (j + i * f) 0 = v j := by
  induction V generalizing i with
  | nil => simp at h
  | cons w V ih =>
    unfold flatValues
    rw [List.flatMap_cons]
    cases i with
    | zero =>
      simp only [List.getElem?_cons_zero, Option.some.injEq] at h
      subst h
      rw [List.getD_eq_getElem?_getD, List.getElem?_append_left (by simp)]
      simp
    | succ i =>
      rw [List.getD_eq_getElem?_getD, List.getElem?_append_right (by
        rw [List.length_ofFn]
        nlinarith [j.2]), List.length_ofFn]
      have := ih (i := i) (by simpa using h)
      rw [List.getD_eq_getElem?_getD] at this
      rw [show (j : Nat) + (i + 1) * f - f = j + i * f by rw [Nat.add_mul]; omega]
      exact this

omit [LinearOrder R] in
/-- The triangle that BLAS reads says everything about a symmetric matrix. -/
theorem upper_flat {G : Mat f R} (hG : ∀ a b, G a b = G b a) (i j : Fin f) :
    upper f (flatValues (List.ofFn G)) i j = G i j := by
  have key : ∀ a b : Fin f, (flatValues (List.ofFn G)).getD (b + a * f) 0 = G a b := fun a b =>
    flatValues_get (by simp) b
  unfold upper
  split
  · rw [key, hG]
  · rw [key]

theorem blasSymv_ok {G : Mat f R} (hG : ∀ a b, G a b = G b a) (t : R) {x y : Buf R} {ox : Nat} {v : Vec f R}
    (hx : bufRead x ox f = .ok (List.ofFn v)) (hy : y.length = f) :
    blasSymv f t (matBuf G) x ox y = .ok (vecBuf fun a => t * mulVec G v a) := by
  unfold blasSymv
  rw [bufRead_mat, hx]
  simp only [bind, Except.bind]
  rw [← bufWrite_vec hy]
  congr 1
  refine List.ext_getElem (by simp) fun i h1 h2 => ?_
  have hi : i < f := by simpa using h1
  have hr : List.range f = List.ofFn fun j : Fin f => (j : Nat) := by
    refine List.ext_getElem (by simp) fun k _ _ => by simp
  simp only [List.getElem_map, List.getElem_range, List.getElem_ofFn]
  rw [hr, zipWith_ofFn, List.sum_ofFn]
  unfold mulVec dot
  congr 1
  refine Finset.sum_congr rfl fun j _ => ?_
  exact congrArg (· * v j) (upper_flat hG ⟨i, hi⟩ j)

/-! ## Rows in memory -/

omit [LinearOrder R] [Field R] in
theorem mapM_cells (cells : Buf R) (vs : List R) :
    (cells.mapM fun c => match c with
      | some v => Except.ok v
      | none => .error Err.undefinedBehaviour) = .ok vs ↔ cells = vs.map some := by
  induction cells generalizing vs with
  | nil =>
    rw [List.mapM_nil]
    cases vs <;> simp [pure, Except.pure]
  | cons c cells ih =>
    rw [List.mapM_cons]
    cases c with
    | none => cases vs <;> simp [bind, Except.bind]
    | some v =>
      simp only [bind, Except.bind]
      cases vs with
      | nil =>
        simp only [List.map_nil, reduceCtorEq, iff_false]
        split
        · simp
        · simp [pure, Except.pure]
      | cons w vs =>
        rw [List.map_cons, List.cons.injEq, ← ih vs, Option.some.injEq]
        split
        · next e h => simp_all
        · next r h => simp [h, pure, Except.pure]

omit [LinearOrder R] [Field R] in
theorem bufRead_iff {b : Buf R} {off n : Nat} {vs : List R} :
    bufRead b off n = .ok vs ↔ off + n ≤ b.length ∧ (b.drop off).take n = vs.map some := by
  unfold bufRead
  split
  · next h => exact (mapM_cells _ _).trans (by simp [h])
  · next h => simp [h]

/-- The rows of `V` are in memory, each with its numbers side by side, row `i` beginning at `i * s`. -/
structure Spec.Laid (s : Nat) (b : Buf R) (V : List (Vec f R)) : Prop where
  stride : f ≤ s
  read : ∀ (i : Nat) (v : Vec f R), V[i]? = some v → bufRead b (i * s) f = .ok (List.ofFn v)

/-- Nothing but the first `n` rows was written. -/
structure Spec.Kept (f n s : Nat) (b b' : Buf R) : Prop where
  length : b'.length = b.length
  cells : ∀ k : Nat, (∀ u < n, k < u * s ∨ u * s + f ≤ k) → b'[k]? = b[k]?

open Spec

omit [LinearOrder R] [Field R] in
theorem Spec.Kept.refl (n s : Nat) (b : Buf R) : Kept f n s b b := ⟨rfl, fun _ _ => rfl⟩

omit [LinearOrder R] [Field R] in
theorem Spec.Kept.trans {n s : Nat} {a b c : Buf R} (h : Kept f n s a b) (h' : Kept f n s b c) : Kept f n s a c :=
  ⟨h'.length.trans h.length, fun k hk => (h'.cells k hk).trans (h.cells k hk)⟩

omit [LinearOrder R] [Field R] in
/-- C order is such a layout. -/
theorem laid_flat (V : List (Vec f R)) : Laid f (flat V) V := ⟨le_refl _, fun _ _ h => bufRead_flat h⟩

omit [LinearOrder R] [Field R] in
/-- Reading one number of a row. -/
theorem bufRead_cell {s : Nat} {b : Buf R} {V : List (Vec f R)} (hV : Laid s b V) {i : Nat} {v : Vec f R} (h : V[i]? = some v) (j : Fin f) :
    bufRead b (i * s + j) 1 = .ok [v j] := by
  have := hV.read i v h
  rw [bufRead_iff] at this ⊢
  obtain ⟨hl, hr⟩ := this
  have hj := j.2
  refine ⟨by omega, ?_⟩
  apply List.ext_getElem?
  intro k
  cases k with
  | zero =>
    have h2 := congrArg (fun l => l[(j : Nat)]?) hr
    simp only [List.getElem?_take, hj, if_true, List.getElem?_drop] at h2
    simp only [List.getElem?_take, List.getElem?_drop]
    rw [if_pos (by omega), Nat.add_zero, h2]
    simp
  | succ k => simp

omit [LinearOrder R] [Field R] in
theorem bufWrite_get {b b' : Buf R} {off : Nat} {vs : List R} (h : bufWrite b off vs = .ok b') (k : Nat) :
    b'[k]? = if off ≤ k ∧ k < off + vs.length then (vs[k - off]?).map some else b[k]? := by
  unfold bufWrite at h
  split at h
  · next hle =>
    cases h
    by_cases h1 : k < off
    · rw [if_neg (by omega), List.append_assoc, List.getElem?_append_left (by simp; omega), List.getElem?_take, if_pos h1]
    · by_cases h2 : k < off + vs.length
      · rw [if_pos (by omega), List.getElem?_append_left (by simp; omega), List.getElem?_append_right (by simp; omega),
          List.length_take, Nat.min_eq_left (by omega), List.getElem?_map]
      · rw [if_neg (by omega), List.getElem?_append_right (by simp; omega), List.getElem?_drop]
        congr 1
        simp
        omega
  · cases h

omit [LinearOrder R] [Field R] in
theorem bufWrite_size {b b' : Buf R} {off : Nat} {vs : List R} (h : bufWrite b off vs = .ok b') : b'.length = b.length := by
  unfold bufWrite at h
  split at h
  · next hle =>
    cases h
    simp
    omega
  · cases h

omit [LinearOrder R] [Field R] in
/-- Writing a row. -/
theorem bufWrite_row {n s : Nat} {b : Buf R} {V : List (Vec f R)} (hV : Laid s b V) {i : Nat} (hi : i < V.length) (hn : i < n)
    (w : Vec f R) :
    ∃ b', bufWrite b (i * s) (List.ofFn w) = .ok b' ∧ Laid s b' (V.set i w) ∧ Kept f n s b b' := by
  have hr := bufRead_iff.mp (hV.read i _ (List.getElem?_eq_getElem hi))
  have hs := hV.stride
  obtain ⟨b', hw⟩ : ∃ b', bufWrite b (i * s) (List.ofFn w) = .ok b' := by
    unfold bufWrite
    rw [if_pos (by rw [List.length_ofFn]; exact hr.1)]
    exact ⟨_, rfl⟩
  have hget := bufWrite_get hw
  have hsize := bufWrite_size hw
  simp only [List.length_ofFn] at hget
  refine ⟨b', hw, ⟨hs, fun k v hk => ?_⟩, ⟨hsize, fun k hk => ?_⟩⟩
  · rw [bufRead_iff]
    by_cases hki : i = k
    · subst hki
      rw [List.getElem?_set_self hi] at hk
      cases hk
      refine ⟨by rw [hsize]; exact hr.1, ?_⟩
      apply List.ext_getElem?
      intro m
      rw [List.getElem?_take, List.getElem?_drop, hget]
      by_cases hm : m < f
      · rw [if_pos hm, if_pos (by omega), List.getElem?_map]
        congr 2
        omega
      · rw [if_neg hm, List.getElem?_eq_none (by simp; omega)]
    · rw [List.getElem?_set_ne hki] at hk
      have hrk := bufRead_iff.mp (hV.read k v hk)
      refine ⟨by rw [hsize]; exact hrk.1, ?_⟩
      rw [← hrk.2]
      apply List.ext_getElem?
      intro m
      rw [List.getElem?_take, List.getElem?_take]
      by_cases hm : m < f
      · rw [if_pos hm, if_pos hm, List.getElem?_drop, List.getElem?_drop, hget, if_neg]
        rintro ⟨h1, h2⟩
        rcases Nat.lt_or_gt_of_ne hki with h | h
        · have : (i + 1) * s ≤ k * s := Nat.mul_le_mul_right s h
          rw [Nat.add_mul] at this
          omega
        · have : (k + 1) * s ≤ i * s := Nat.mul_le_mul_right s h
          rw [Nat.add_mul] at this
          omega
      · rw [if_neg hm, if_neg hm]
  · rw [hget, if_neg]
    have := hk i hn
    omega

omit [LinearOrder R] [Field R] in
/-- In C order the rows are all there is. -/
theorem laid_eq_flat {b : Buf R} {V : List (Vec f R)} (h : Laid f b V) (hl : b.length = V.length * f) : b = flat V := by
  apply List.ext_getElem?
  intro k
  by_cases hk : k < V.length * f
  · have hf : 0 < f := by
      by_contra h0
      have : V.length * f = 0 := Nat.mul_eq_zero.mpr (Or.inr (by omega))
      omega
    have hi : k / f < V.length := by
      rw [Nat.div_lt_iff_lt_mul hf]; exact hk
    have hj : k % f < f := Nat.mod_lt _ hf
    have e : k / f * f + k % f = k := Nat.div_add_mod' k f
    have h1 := (bufRead_iff.mp (bufRead_cell h (List.getElem?_eq_getElem hi) ⟨k % f, hj⟩)).2
    have h2 := (bufRead_iff.mp (bufRead_cell (laid_flat V) (List.getElem?_eq_getElem hi) ⟨k % f, hj⟩)).2
    rw [← h2] at h1
    have := congrArg (fun l => l[0]?) h1
    simp only [List.getElem?_take, List.getElem?_drop, e] at this
    simpa using this
  · rw [List.getElem?_eq_none (by omega), List.getElem?_eq_none (by rw [flat_length]; omega)]

/-! ## Entries -/

theorem rowEntries_cons {err : Err} {Y : List (Vec f R)} {i : Nat} {c : R} {row : List (Nat × R)} {es : List (Vec f R × R)}
    (h : rowEntries err Y ((i, c) :: row) = .ok es) :
    ∃ y es', Y[i]? = some y ∧ rowEntries err Y row = .ok es' ∧ es = (y, c) :: es' := by
  unfold rowEntries at h
  cases hy : Y[i]? with
  | none => rw [hy] at h; simp at h
  | some y =>
    rw [hy] at h
    simp only [bind, Except.bind, pure, Except.pure] at h
    cases hr : rowEntries err Y row with
    | error e => rw [hr] at h; simp at h
    | ok es' =>
      rw [hr] at h
      simp only [Except.ok.injEq] at h
      exact ⟨y, es', rfl, rfl, h.symm⟩

theorem mapM_cons_ok {α β : Type} {g : α → Except Err β} {a : α} {l : List α} {r : List β} (h : (a :: l).mapM g = .ok r) :
    ∃ b r', g a = .ok b ∧ l.mapM g = .ok r' ∧ r = b :: r' := by
  rw [List.mapM_cons] at h
  cases ha : g a with
  | error e => rw [ha] at h; simp [bind, Except.bind] at h
  | ok b =>
    cases hl : l.mapM g with
    | error e => rw [ha, hl] at h; simp [bind, Except.bind] at h
    | ok r' =>
      rw [ha, hl] at h
      simp only [bind, Except.bind, pure, Except.pure, Except.ok.injEq] at h
      exact ⟨b, r', rfl, rfl, h.symm⟩

/-- The pointers of a row and its entries. -/
theorem represents_row {M : SparseArrays R} {C : SpRows R} (h : Spec.Represents M C) {u : Nat} {row : List (Nat × R)}
    (hu : C[u]? = some row) :
    ∃ a b, M.indptr[u]? = some a ∧ M.indptr[u + 1]? = some b ∧ (a = b ↔ row = []) ∧
      (List.range' a (b - a)).mapM (csrEntry M) = .ok row := by
  obtain ⟨hlt, hrow⟩ := List.getElem?_eq_some_iff.mp hu
  have hrows := h.rows
  have h1 := h.pointer u (by omega)
  have h2 := h.pointer (u + 1) (by omega)
  refine ⟨_, _, h1, h2, ?_, ?_⟩
  · rw [List.take_succ_eq_append_getElem hlt, List.flatten_append, List.length_append, hrow]
    simp
  · have hr := csrReadRow_eq h u
    unfold csrReadRow at hr
    rw [h1, h2, hu] at hr
    exact hr

end Implicit
